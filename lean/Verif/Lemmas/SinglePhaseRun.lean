import Verif.Lemmas.SinglePhaseColumn
import Verif.Props.Periodic
import Verif.Props.Linear

/-! From the boundary conditions to the upscaled tensor. -/

namespace Verif.SinglePhase

variable {K : Type} [Field K] [LinearOrder K]

/-- The conditions `cnd` on the boundary faces, with `mate` the face on the other side: prescribed pressures, no flow, or
periodic pairs with opposite jumps. -/
structure Kind (G : Grid K) (mate : Half G → Half G) (cnd : Half G → Boundary.BC K) : Prop where
  interior : ∀ p, (G.face p).nbr ≠ none → mate p = twin G p
  boundary : ∀ p, (G.face p).nbr = none →
    ((cnd p).type = .dirichlet ∧ mate p = p) ∨ ((cnd p).type = .neumann ∧ (cnd p).value = 0 ∧ mate p = p) ∨
    ((cnd p).type = .periodic ∧ (cnd (mate p)).type = .periodic ∧ (cnd (mate p)).value = -(cnd p).value ∧ mate p ≠ p ∧
      (G.face (mate p)).nbr = none ∧ mate (mate p) = p)
  unique : ∀ p q, (G.face p).nbr = none → (G.face q).nbr = none → (cnd p).type = .periodic → (cnd q).type = .periodic →
    (G.face p).bid = (G.face q).bid → p = q

/-- The table of boundary conditions `r` holds the conditions `cnd`. -/
structure Holds (G : Grid K) (side : Boundary.Face K → Nat) (mate : Half G → Half G) (cnd : Half G → Boundary.BC K)
    (r : Boundary.BCs K) : Prop where
  flow : ∀ p, (G.face p).nbr = none → r.flow[(G.face p).bid]? = some (cnd p)
  canon : CanonSides G side r
  partner : ∀ p, (G.face p).nbr = none → (cnd p).type = .periodic → r.hdl.getPartner (G.face p).bid = some (G.face (mate p)).bid

/-- Kinds of faces for the conditions `cnd`. -/
def extFor (G : Grid K) (dof : Half G → Nat) (mate : Half G → Half G) (cnd : Half G → Boundary.BC K) (p : Half G) :
    Hybrid.Ext K :=
  if (G.face p).nbr = none then
    match (cnd p).type with
    | .dirichlet => .dirichlet (cnd p).value
    | .neumann => .neumann (cnd p).value
    | .periodic => .periodic (cnd p).value (dof (mate p))
  else .interior

theorem setting_of {G : Grid K} {mate : Half G → Half G} {cnd : Half G → Boundary.BC K} (hk : Kind G mate cnd)
    (dof : Half G → Nat) : Setting G dof (extFor G dof mate cnd) mate where
  interior p hp := ⟨by unfold extFor; rw [if_neg hp], hk.interior p hp⟩
  boundary p hp := by
    unfold extFor
    rw [if_pos hp]
    rcases hk.boundary p hp with ⟨h, hm⟩ | ⟨h, hv, hm⟩ | ⟨h, h', hv, hne, hb, hmm⟩
    · left; rw [h]; exact ⟨_, rfl, hm⟩
    · right; left; rw [h, hv]; exact ⟨rfl, hm⟩
    · right; right
      rw [if_pos hb, h, h', hmm, hv]
      exact ⟨_, rfl, rfl, hne, hb, rfl⟩

/-- The periodic faces of the grid. -/
def perList (G : Grid K) (dof : Half G → Nat) (mate : Half G → Half G) (cnd : Half G → Boundary.BC K) :
    List Numbering.PerFace :=
  ((G.halves.filter fun p => (G.face p).nbr.isNone).map fun p =>
    if (cnd p).type = .periodic then some (⟨(G.face p).bid, (G.face (mate p)).bid, dof p⟩ : Numbering.PerFace)
    else none).filterMap id

theorem mem_perList {G : Grid K} {dof : Half G → Nat} {mate : Half G → Half G} {cnd : Half G → Boundary.BC K}
    (f : Numbering.PerFace) : f ∈ perList G dof mate cnd ↔
      ∃ p, (G.face p).nbr = none ∧ (cnd p).type = .periodic ∧ f = ⟨(G.face p).bid, (G.face (mate p)).bid, dof p⟩ := by
  unfold perList
  rw [List.mem_filterMap]
  constructor
  · rintro ⟨o, ho, e⟩
    obtain ⟨p, hp, rfl⟩ := List.mem_map.mp ho
    have hp := (List.mem_filter.mp hp).2
    by_cases ht : (cnd p).type = .periodic
    · rw [if_pos ht] at e
      exact ⟨p, by simpa using hp, ht, (Option.some.inj e).symm⟩
    · rw [if_neg ht] at e; cases e
  · rintro ⟨p, hp, ht, rfl⟩
    refine ⟨some _, List.mem_map.mpr ⟨p, List.mem_filter.mpr ⟨mem_halves G p, by simp [hp]⟩, ?_⟩, rfl⟩
    rw [if_pos ht]

theorem mapM_map {α β : Type} (f : α → Option β) (g : α → β) (l : List α) (h : ∀ a ∈ l, f a = some (g a)) :
    l.mapM f = some (l.map g) := by
  induction l with
  | nil => rfl
  | cons a l ih =>
    rw [List.mapM_cons, h a (by simp), ih fun x hx => h x (by simp [hx])]
    rfl

theorem perFaces_ok {G : Grid K} {side : Boundary.Face K → Nat} {n : Numbering.Numbers} {dof : Half G → Nat}
    (hn : Nums G n dof) {mate : Half G → Half G} {cnd : Half G → Boundary.BC K} {r : Boundary.BCs K}
    (hr : Holds G side mate cnd r) : perFaces G n r = some (perList G dof mate cnd) := by
  unfold perFaces perList
  rw [mapM_map _ (fun p => if (cnd p).type = .periodic then
    some (⟨(G.face p).bid, (G.face (mate p)).bid, dof p⟩ : Numbering.PerFace) else none)]
  · rfl
  · intro p hp
    have hp : (G.face p).nbr = none := by simpa using (List.mem_filter.mp hp).2
    rw [hr.flow p hp, Option.bind_some]
    by_cases ht : (cnd p).type = .periodic
    · rw [if_pos ht, if_pos ht, hr.partner p hp ht, Option.bind_some, hn.at_ p]; rfl
    · rw [if_neg ht, if_neg ht]

section
variable {G : Grid K} {n : Numbering.Numbers} {dof : Half G → Nat} {mate : Half G → Half G}
  {cnd : Half G → Boundary.BC K}

theorem per_inj (hn : Nums G n dof) {p q : Half G} (hp : (G.face p).nbr = none) (h : dof q = dof p) : q = p := by
  rcases (hn.eq_iff q p).mp h with h | h
  · exact h
  · have := h.2; rw [hp] at this; cases this

theorem nodup_filterMap {α β : Type} (g : α → Option β) : ∀ (l : List α), l.Nodup →
    (∀ a ∈ l, ∀ b ∈ l, ∀ x, g a = some x → g b = some x → a = b) → (l.filterMap g).Nodup
  | [], _, _ => by simp
  | a :: l, hl, h => by
    have ih := nodup_filterMap g l (List.nodup_cons.mp hl).2 fun x hx y hy => h x (by simp [hx]) y (by simp [hy])
    rw [List.filterMap_cons]
    cases hg : g a with
    | none => exact ih
    | some x =>
      refine List.nodup_cons.mpr ⟨fun hx => ?_, ih⟩
      obtain ⟨b, hb, e⟩ := List.mem_filterMap.mp hx
      have := h a (by simp) b (by simp [hb]) x hg e
      exact (List.nodup_cons.mp hl).1 (this ▸ hb)

theorem nodup_perList {β : Type} (f : Numbering.PerFace → β)
    (hf : ∀ p q, (G.face p).nbr = none → (G.face q).nbr = none → (cnd p).type = .periodic → (cnd q).type = .periodic →
      f ⟨(G.face p).bid, (G.face (mate p)).bid, dof p⟩ = f ⟨(G.face q).bid, (G.face (mate q)).bid, dof q⟩ → p = q) :
    ((perList G dof mate cnd).map f).Nodup := by
  unfold perList
  rw [List.filterMap_map, List.map_filterMap]
  refine nodup_filterMap _ _ ((nodup_halves G).filter _) ?_
  intro p hp q hq x h1 h2
  have hp : (G.face p).nbr = none := by simpa using (List.mem_filter.mp hp).2
  have hq : (G.face q).nbr = none := by simpa using (List.mem_filter.mp hq).2
  simp only [Function.comp, id] at h1 h2
  by_cases tp : (cnd p).type = .periodic
  · by_cases tq : (cnd q).type = .periodic
    · rw [if_pos tp] at h1
      rw [if_pos tq] at h2
      exact hf p q hp hq tp tq (Option.some.inj (h1.trans h2.symm))
    · rw [if_neg tq] at h2; cases h2
  · rw [if_neg tp] at h1; cases h1

theorem per_mate (hk : Kind G mate cnd) {p : Half G} (hp : (G.face p).nbr = none) (ht : (cnd p).type = .periodic) :
    (cnd (mate p)).type = .periodic ∧ (cnd (mate p)).value = -(cnd p).value ∧ mate p ≠ p ∧
      (G.face (mate p)).nbr = none ∧ mate (mate p) = p := by
  rcases hk.boundary p hp with ⟨h, _⟩ | ⟨h, _⟩ | ⟨_, h⟩
  · rw [h] at ht; cases ht
  · rw [h] at ht; cases ht
  · exact h

theorem per_self (hk : Kind G mate cnd) {p : Half G} (hp : (G.face p).nbr = none) (ht : (cnd p).type ≠ .periodic) :
    mate p = p := by
  rcases hk.boundary p hp with ⟨_, h⟩ | ⟨_, _, h⟩ | ⟨h, _⟩
  · exact h
  · exact h
  · exact absurd h ht

theorem mutual_ok (hk : Kind G mate cnd) (hn : Nums G n dof) : Numbering.Mutual (perList G dof mate cnd) where
  bids := nodup_perList _ hk.unique
  dofs := nodup_perList _ fun _ _ _ hq _ _ e => per_inj hn hq e
  back f hf := by
    obtain ⟨p, hp, ht, rfl⟩ := (mem_perList f).mp hf
    obtain ⟨h1, _, _, h4, h5⟩ := per_mate hk hp ht
    exact ⟨_, (mem_perList _).mpr ⟨mate p, h4, h1, rfl⟩, rfl, by rw [h5]⟩

theorem bdry_ok (hk : Kind G mate cnd) (hn : Nums G n dof) {p : Half G} (hp : (G.face p).nbr = none)
    (ht : (cnd p).type = .periodic) : Numbering.bdryMap (perList G dof mate cnd) (G.face p).bid = some (dof p) :=
  (Numbering.bdryMap_spec _ (mutual_ok hk hn).bids _ _).mpr ⟨_, (mem_perList _).mpr ⟨p, hp, ht, rfl⟩, rfl, rfl⟩

theorem partner_ok (hk : Kind G mate cnd) (hn : Nums G n dof) : ∃ pp,
    Numbering.partnerDofs (perList G dof mate cnd) = some pp ∧
    ∀ p, (G.face p).nbr = none → Hybrid.partnerOf (if perList G dof mate cnd = [] then none else some pp) (dof p) =
      if mate p = p then none else some (dof (mate p)) := by
  obtain ⟨pp, h1, h2, _⟩ := Numbering.C39_partners _ (mutual_ok hk hn)
  refine ⟨pp, h1, fun p hp => ?_⟩
  by_cases ht : (cnd p).type = .periodic
  · obtain ⟨t1, _, t3, t4, _⟩ := per_mate hk hp ht
    have hm := (mem_perList (dof := dof) (mate := mate) (cnd := cnd) _).mpr ⟨p, hp, ht, rfl⟩
    rw [if_neg t3, if_neg (fun e => by rw [e] at hm; cases hm)]
    exact (h2 _ _).mpr ⟨_, hm, _, (mem_perList _).mpr ⟨mate p, t4, t1, rfl⟩, rfl, rfl, rfl⟩
  · rw [if_pos (per_self hk hp ht)]
    split
    · rfl
    · change pp (dof p) = none
      cases hpp : pp (dof p) with
      | none => rfl
      | some v =>
        obtain ⟨f, hf, _, _, _, e, _⟩ := (h2 _ _).mp hpp
        obtain ⟨q, hq, htq, rfl⟩ := (mem_perList f).mp hf
        have := per_inj hn hp e
        subst this
        exact absurd htq ht

theorem ext_ok {side : Boundary.Face K → Nat} {cnd0 : Half G → Boundary.BC K} (hk : Kind G mate cnd)
    (hk0 : Kind G mate cnd0) (hper : ∀ p, (cnd p).type = .periodic → (cnd0 p).type = .periodic)
    (hn : Nums G n dof) {r : Boundary.BCs K} (hr : Holds G side mate cnd r) (p : Half G) :
    extOf r (Numbering.bdryMap (perList G dof mate cnd0)) (G.face p) = some (extFor G dof mate cnd p) := by
  unfold extOf extFor
  cases hp : (G.face p).nbr with
  | some d => simp
  | none =>
    simp only [if_true]
    rw [hr.flow p hp, Option.bind_some]
    rcases hk.boundary p hp with ⟨h, hm⟩ | ⟨h, hv, hm⟩ | ⟨h, h', hv, hne, hb, hmm⟩
    · rw [h]
    · rw [h]
    · rw [h]
      simp only
      rw [hr.partner p hp h, Option.bind_some, bdry_ok hk0 hn hb (hper _ h')]
      rfl

end

/-- Cell pressures `c` and face pressures `z` of a flow problem with the boundary conditions `cnd`. -/
structure FlowSolG (I : Input K) (mate : Half I.G → Half I.G) (cnd : Half I.G → Boundary.BC K)
    (c : Fin I.G.nc → K) (z : Half I.G → K) : Prop where
  balanced : Energy.Balanced (nf := fun c => (I.G.cell c).nf) (hflux I c z)
  skew : Energy.Skew (nf := fun c => (I.G.cell c).nf) mate (hflux I c z)
  interior : ∀ p, (I.G.face p).nbr ≠ none → z p = z (mate p)
  dirichlet : ∀ p, (I.G.face p).nbr = none → (cnd p).type = .dirichlet → z p = (cnd p).value
  neumann : ∀ p, (I.G.face p).nbr = none → (cnd p).type = .neumann → hflux I c z p = (cnd p).value
  periodic : ∀ p, (I.G.face p).nbr = none → (cnd p).type = .periodic → z p - z (mate p) = (cnd p).value

/-- The same without gravity. -/
structure FlowSol (I : Input K) (mate : Half I.G → Half I.G) (cnd : Half I.G → Boundary.BC K)
    (c : Fin I.G.nc → K) (z : Half I.G → K) : Prop where
  balanced : Energy.Balanced (Energy.fluxOf (ipOf I) (Energy.drop c z))
  skew : Energy.Skew mate (Energy.fluxOf (ipOf I) (Energy.drop c z))
  interior : ∀ p, (I.G.face p).nbr ≠ none → z p = z (mate p)
  dirichlet : ∀ p, (I.G.face p).nbr = none → (cnd p).type = .dirichlet → z p = (cnd p).value
  neumann : ∀ p, (I.G.face p).nbr = none → (cnd p).type = .neumann →
    Energy.fluxOf (ipOf I) (Energy.drop c z) p = (cnd p).value
  periodic : ∀ p, (I.G.face p).nbr = none → (cnd p).type = .periodic → z p - z (mate p) = (cnd p).value

theorem FlowSolG.zero [IsStrictOrderedRing K] {I : Input K} (h : I.gravity = 0) {mate : Half I.G → Half I.G} {cnd : Half I.G → Boundary.BC K}
    {c : Fin I.G.nc → K} {z : Half I.G → K} (f : FlowSolG I mate cnd c z) : FlowSol I mate cnd c z := by
  have e := hflux_zero h c z
  have f1 := f.balanced
  have f2 := f.skew
  have f3 := f.neumann
  rw [e] at f1 f2 f3
  exact ⟨f1, f2, f.interior, f.dirichlet, f3, f.periodic⟩

section
variable [IsStrictOrderedRing K]

theorem column_ok {I : Input K} (h : Regular I) (ht : Tiling I.G) {lo hi : Fin 3 → K} {side : Boundary.Face K → Nat}
    (hb : FillsBox I.G lo hi side) {n : Numbering.Numbers} {dof : Half I.G → Nat} (hn : Nums I.G n dof)
    {mate : Half I.G → Half I.G} {cnd cnd0 : Half I.G → Boundary.BC K} (hk : Kind I.G mate cnd)
    (hk0 : Kind I.G mate cnd0) (hper : ∀ p, (cnd p).type = .periodic → (cnd0 p).type = .periodic)
    {r : Boundary.BCs K} (hr : Holds I.G side mate cnd r) (pp : Nat → Option Nat)
    (hpp : ∀ p, (I.G.face p).nbr = none → Hybrid.partnerOf (if perList I.G dof mate cnd0 = [] then none else some pp) (dof p) =
      if mate p = p then none else some (dof (mate p))) (pdd : Fin 3) :
    ∃ c z, FlowSolG I mate cnd c z ∧ ∃ q,
      column I n (Numbering.bdryMap (perList I.G dof mate cnd0)) (if perList I.G dof mate cnd0 = [] then none else some pp) r pdd =
        some q ∧ ∀ i, q i = (if I.bct = .fixed ∧ i ≠ pdd then 0 else
          avgVel I.G side (hflux I c z) i) * (hi pdd - lo pdd) := by
  obtain ⟨p0, _, _⟩ := hb.ne 0 (by omega)
  obtain ⟨c, z, hs, hf⟩ := flow_ok h ht hn (setting_of hk dof) p0 r (Numbering.bdryMap (perList I.G dof mate cnd0))
    (if perList I.G dof mate cnd0 = [] then none else some pp) hpp (ext_ok hk hk0 hper hn hr)
  refine ⟨c, z, ⟨hs.balanced, hs.skew, hs.interior, ?_, ?_, ?_⟩, ?_⟩
  · intro p hp ht
    exact hs.dirichlet p _ (by unfold extFor; rw [if_pos hp, ht])
  · intro p hp ht
    exact hs.neumann p _ (by unfold extFor; rw [if_pos hp, ht])
  · intro p hp ht
    exact hs.periodic p _ _ (by unfold extFor; rw [if_pos hp, ht])
  · obtain ⟨canon, hc, hc'⟩ := canonOf_ok hr.canon
    unfold column
    rw [hf, Option.bind_some, hc, Option.bind_some]
    exact ⟨_, permColumn_ok ht hb hc' _ _ _, fun i => rfl⟩

/-- The computation succeeds, and its columns come from solutions of the three flow problems. -/
theorem run_okG {I : Input K} (h : Regular I) (ht : Tiling I.G) {lo hi : Fin 3 → K} {side : Boundary.Face K → Nat}
    (hb : FillsBox I.G lo hi side) {mate : Half I.G → Half I.G} (cnd : Fin 3 → Half I.G → Boundary.BC K)
    (hk : ∀ d, Kind I.G mate (cnd d)) (hper : ∀ d p, (cnd d p).type = .periodic → (cnd 0 p).type = .periodic)
    (hset : ∀ d b, ∃ r, setup I d b = some r ∧ Holds I.G side mate (cnd d) r) (b : Boundary.BCs K) :
    ∃ T, upscaleEffectivePerm I b = some T ∧ ∀ d, ∃ c z, FlowSolG I mate (cnd d) c z ∧
      ∀ i, T i d = (if I.bct = .fixed ∧ i ≠ d then 0 else
          avgVel I.G side (hflux I c z) i) * (hi d - lo d) := by
  obtain ⟨n, dof, hen, hn⟩ := numbering ht
  obtain ⟨r0, s0, h0⟩ := hset 0 b
  obtain ⟨r1, s1, h1⟩ := hset 1 r0
  obtain ⟨r2, s2, h2⟩ := hset 2 r1
  obtain ⟨pp, e1, hpp⟩ := partner_ok (hk 0) hn
  obtain ⟨c0, z0, f0, q0, v0, w0⟩ := column_ok h ht hb hn (hk 0) (hk 0) (hper 0) h0 pp hpp 0
  obtain ⟨c1, z1, f1, q1, v1, w1⟩ := column_ok h ht hb hn (hk 1) (hk 0) (hper 1) h1 pp hpp 1
  obtain ⟨c2, z2, f2, q2, v2, w2⟩ := column_ok h ht hb hn (hk 2) (hk 0) (hper 2) h2 pp hpp 2
  refine ⟨fun i d => ![q0, q1, q2] d i, ?_, ?_⟩
  · unfold upscaleEffectivePerm
    simp only [s0, hen, perFaces_ok hn h0, e1, v0, s1, v1, s2, v2, Option.bind_eq_bind, Option.bind_some]
    rfl
  · intro d
    fin_cases d
    · exact ⟨c0, z0, f0, w0⟩
    · exact ⟨c1, z1, f1, w1⟩
    · exact ⟨c2, z2, f2, w2⟩

theorem run_ok {I : Input K} (h : Sound I) (ht : Tiling I.G) {lo hi : Fin 3 → K} {side : Boundary.Face K → Nat}
    (hb : FillsBox I.G lo hi side) {mate : Half I.G → Half I.G} (cnd : Fin 3 → Half I.G → Boundary.BC K)
    (hk : ∀ d, Kind I.G mate (cnd d)) (hper : ∀ d p, (cnd d p).type = .periodic → (cnd 0 p).type = .periodic)
    (hset : ∀ d b, ∃ r, setup I d b = some r ∧ Holds I.G side mate (cnd d) r) (b : Boundary.BCs K) :
    ∃ T, upscaleEffectivePerm I b = some T ∧ ∀ d, ∃ c z, FlowSol I mate (cnd d) c z ∧
      ∀ i, T i d = (if I.bct = .fixed ∧ i ≠ d then 0 else
          avgVel I.G side (Energy.fluxOf (ipOf I) (Energy.drop c z)) i) * (hi d - lo d) := by
  obtain ⟨T, h1, h2⟩ := run_okG h.toRegular ht hb cnd hk hper hset b
  refine ⟨T, h1, fun d => ?_⟩
  obtain ⟨c, z, f, e⟩ := h2 d
  rw [hflux_zero h.gravity] at e
  exact ⟨c, z, f.zero h.gravity, e⟩

end
end Verif.SinglePhase
