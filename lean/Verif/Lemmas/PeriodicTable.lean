import Verif.Lemmas.Periodic
import Verif.Spec.Boundary

set_option linter.unusedSectionVars false

namespace Verif.Boundary

variable {K : Type} [Field K] [LinearOrder K] [IsStrictOrderedRing K]

/-- `OnBox` in terms of the model's classification. -/
def OnBoxM (tol : K) (bf : List (Face K)) (side : Face K → Nat) : Prop :=
  ∀ f ∈ bf, canonPosOf tol (lowOf bf) (hiOf bf) f.centroid = some (side f)

/-- `UniqueIds` in terms of the model's largest id. -/
def UniqueIdsM (bf : List (Face K)) : Prop := (bf.map (·.bid)).Nodup ∧ maxBid bf = bf.length

theorem outerFaces_eq (faces : List (Face K)) : outerFaces faces = boundaryFaces faces := rfl

theorem lowOf_eq {bf : List (Face K)} {lo hi : Fin 3 → K} (h : Extents bf lo hi) : lowOf bf = lo := by
  funext d
  obtain ⟨f, hf, e⟩ := h.lo_mem d
  apply le_antisymm (e ▸ lowOf_le bf d f hf)
  rcases foldl_min_mem (fun f : Face K => f.centroid d) bf (10 ^ 100) with e | ⟨g, hg, e⟩
  · unfold lowOf; rw [e]; exact le_trans (le_abs_self _) (h.sentinel d).1
  · unfold lowOf; rw [e]; exact (h.bounds g hg d).1

theorem hiOf_eq {bf : List (Face K)} {lo hi : Fin 3 → K} (h : Extents bf lo hi) : hiOf bf = hi := by
  funext d
  obtain ⟨f, hf, e⟩ := h.hi_mem d
  apply le_antisymm _ (e ▸ le_hiOf bf d f hf)
  rcases foldl_max_mem (fun f : Face K => f.centroid d) bf (-(10 ^ 100)) with e | ⟨g, hg, e⟩
  · unfold hiOf; rw [e]; exact (abs_le.mp (h.sentinel d).2).1
  · unfold hiOf; rw [e]; exact (h.bounds g hg d).2

theorem canonPosOf_iff (tol : K) (lo hi c : Fin 3 → K) (s : Nat) :
    canonPosOf tol lo hi c = some s ↔ AtSide tol lo hi c s := by
  unfold canonPosOf AtSide
  simp only [List.findSome?_cons, List.findSome?_nil, Fin.exists_fin_succ, Fin.forall_fin_succ]
  by_cases a0 : |c 0 - lo 0| ≤ tol
  · have a0' : ¬ tol < |c 0 - lo 0| := not_lt.mpr a0
    simp [a0, a0', eq_comm]
  · have a0' : tol < |c 0 - lo 0| := not_le.mp a0
    by_cases b0 : |c 0 - hi 0| ≤ tol
    · have b0' : ¬ tol < |c 0 - hi 0| := not_lt.mpr b0
      simp [a0, a0', b0, b0', eq_comm]
    · have b0' : tol < |c 0 - hi 0| := not_le.mp b0
      by_cases a1 : |c 1 - lo 1| ≤ tol
      · have a1' : ¬ tol < |c 1 - lo 1| := not_lt.mpr a1
        simp [a0, a0', b0, b0', a1, a1', eq_comm]
      · have a1' : tol < |c 1 - lo 1| := not_le.mp a1
        by_cases b1 : |c 1 - hi 1| ≤ tol
        · have b1' : ¬ tol < |c 1 - hi 1| := not_lt.mpr b1
          simp [a0, a0', b0, b0', a1, a1', b1, b1', eq_comm]
        · have b1' : tol < |c 1 - hi 1| := not_le.mp b1
          by_cases a2 : |c 2 - lo 2| ≤ tol
          · have a2' : ¬ tol < |c 2 - lo 2| := not_lt.mpr a2
            simp [a0, a0', b0, b0', a1, a1', b1, b1', a2, a2', eq_comm]
          · have a2' : tol < |c 2 - lo 2| := not_le.mp a2
            by_cases b2 : |c 2 - hi 2| ≤ tol <;>
              simp [a0, a0', b0, b0', a1, a1', b1, b1', a2, a2', b2, eq_comm]

theorem onBox_model {tol : K} {bf : List (Face K)} {side : Face K → Nat} (h : OnBox tol bf side) :
    OnBoxM tol bf side := by
  rcases h with rfl | ⟨lo, hi, he, hs⟩
  · intro f hf; simp at hf
  · intro f hf
    rw [lowOf_eq he, hiOf_eq he, canonPosOf_iff]
    exact hs f hf

/-- The bounding box computed by the code has the stated extents when all coordinates are below the sentinel. -/
theorem extents_of_bounded {bf : List (Face K)} (hne : bf ≠ []) (hb : ∀ f ∈ bf, ∀ d, |f.centroid d| < 10 ^ 100) :
    Extents bf (lowOf bf) (hiOf bf) := by
  obtain ⟨f0, hf0⟩ := List.exists_mem_of_ne_nil bf hne
  have hlo : ∀ d, ∃ f ∈ bf, f.centroid d = lowOf bf d := by
    intro d
    rcases foldl_min_mem (fun f : Face K => f.centroid d) bf (10 ^ 100) with e | ⟨g, hg, e⟩
    · have h1 := lowOf_le bf d f0 hf0
      unfold lowOf at h1
      rw [e] at h1
      have := lt_of_le_of_lt (le_abs_self _) (hb f0 hf0 d)
      exact absurd h1 (not_le.mpr this)
    · exact ⟨g, hg, e.symm⟩
  have hhi : ∀ d, ∃ f ∈ bf, f.centroid d = hiOf bf d := by
    intro d
    rcases foldl_max_mem (fun f : Face K => f.centroid d) bf (-(10 ^ 100)) with e | ⟨g, hg, e⟩
    · have h1 := le_hiOf bf d f0 hf0
      unfold hiOf at h1
      rw [e] at h1
      have := (abs_lt.mp (hb f0 hf0 d)).1
      exact absurd h1 (not_le.mpr this)
    · exact ⟨g, hg, e.symm⟩
  refine ⟨hlo, hhi, fun f hf d => ⟨lowOf_le bf d f hf, le_hiOf bf d f hf⟩, fun d => ?_⟩
  obtain ⟨f, hf, e⟩ := hlo d
  obtain ⟨g, hg, e'⟩ := hhi d
  exact ⟨e ▸ (hb f hf d).le, e' ▸ (hb g hg d).le⟩

theorem onBoxM_spec {tol : K} {bf : List (Face K)} {side : Face K → Nat} (h : OnBoxM tol bf side)
    (hb : ∀ f ∈ bf, ∀ d, |f.centroid d| < 10 ^ 100) : OnBox tol bf side := by
  by_cases hne : bf = []
  · exact Or.inl hne
  · refine Or.inr ⟨_, _, extents_of_bounded hne hb, fun f hf => ?_⟩
    rw [← canonPosOf_iff]
    exact h f hf

theorem maxBid_of_unique (bf : List (Face K)) (hpos : ∀ f ∈ bf, f.bid ≠ 0) (hnd : (bf.map (·.bid)).Nodup)
    (hle : ∀ f ∈ bf, f.bid ≤ bf.length) : maxBid bf = bf.length := by
  apply le_antisymm
  · have key : ∀ (l : List (Face K)) (s n : Nat), s ≤ n → (∀ f ∈ l, f.bid ≤ n) → l.foldl (fun m f => max m f.bid) s ≤ n := by
      intro l
      induction l with
      | nil => intro s n hs _; exact hs
      | cons a l ih =>
        intro s n hs h
        exact ih (max s a.bid) n (max_le hs (h a (by simp))) (fun f hf => h f (by simp [hf]))
    exact key bf 0 _ (Nat.zero_le _) hle
  · by_cases h0 : bf.length = 0
    · omega
    · obtain ⟨f, hf, e⟩ := bids_complete bf hpos hnd hle bf.length (by omega) le_rfl
      rw [← e]; exact le_maxBid bf f hf

theorem uniqueIds_model {faces : List (Face K)} (h : UniqueIds (outerFaces faces)) :
    UniqueIdsM (boundaryFaces faces) :=
  ⟨h.1, maxBid_of_unique _ (fun _ hf => (mem_boundaryFaces.mp hf).2) h.1 h.2⟩

theorem mapM_option_some {α β : Type} (f : α → Option β) (g : α → β) (l : List α)
    (h : ∀ x ∈ l, f x = some (g x)) : l.mapM f = some (l.map g) := by
  induction l with
  | nil => rfl
  | cons a l ih =>
    rw [List.mapM_cons, h a (by simp), ih (fun x hx => h x (by simp [hx]))]
    rfl

theorem mapM_option_mem {α β : Type} (f : α → Option β) (l : List α) (r : List β)
    (h : l.mapM f = some r) : ∀ x ∈ l, (f x).isSome := by
  induction l generalizing r with
  | nil => simp
  | cons a l ih =>
    rw [List.mapM_cons] at h
    cases ha : f a with
    | none => rw [ha] at h; cases h
    | some y =>
      rw [ha] at h
      cases hl : l.mapM f with
      | none => rw [hl] at h; cases h
      | some ys =>
        intro x hx
        rcases List.mem_cons.mp hx with rfl | hx
        · simp [ha]
        · exact ih ys hl x hx

/-- The info record of face number `k` on side `side f`. -/
def infoOf (side : Face K → Nat) (fi : Face K × Nat) : BFI K :=
  { faceIndex := fi.2, bid := fi.1.bid, canonPos := side fi.1, partnerFace := none, partnerBid := 0,
    area := fi.1.area, centroid := fun d => if d.val = side fi.1 / 2 then 0 else fi.1.centroid d }

theorem makeInfos_ok {tol : K} {bf : List (Face K)} {side : Face K → Nat} (h : OnBoxM tol bf side) :
    makeInfos tol bf = some (bf.zipIdx.map (infoOf side)) := by
  unfold makeInfos
  apply mapM_option_some
  rintro ⟨f, k⟩ hf
  have : f ∈ bf := List.fst_mem_of_mem_zipIdx hf
  have hs := h f this
  simp only [hs, Option.bind_eq_bind, Option.bind_some, Option.pure_def]
  rfl

/-- Whenever the info list can be built, the grid is a box in the sense of `OnBoxM`. -/
theorem makeInfos_onBox {tol : K} {bf : List (Face K)} {r : List (BFI K)} (h : makeInfos tol bf = some r) :
    ∃ side, OnBoxM tol bf side := by
  unfold makeInfos at h
  have := mapM_option_mem _ _ _ h
  refine ⟨fun f => (canonPosOf tol (lowOf bf) (hiOf bf) f.centroid).getD 0, ?_⟩
  intro f hf
  obtain ⟨k, hk, rfl⟩ := List.mem_iff_getElem.mp hf
  have := this (bf[k], k) (by
    rw [List.mem_zipIdx_iff_getElem?]; simp [hk])
  cases hc : canonPosOf tol (lowOf bf) (hiOf bf) bf[k].centroid with
  | none => simp [hc] at this
  | some c => simp [hc]

theorem accepts_infoOf (side : Face K → Nat) (f g : Face K) (k k' : Nat) :
    accepts (infoOf side (f, k)) (infoOf side (g, k')) ↔ PeriodicImage (side f) f (side g) g := by
  unfold accepts PeriodicImage infoOf
  simp only
  have hop : side g = oppPos (side f) ↔ side f / 2 = side g / 2 ∧ side f ≠ side g := by
    unfold oppPos; split <;> omega
  rw [hop]
  constructor
  · rintro ⟨⟨h1, h2⟩, h3, h4⟩
    refine ⟨h1, h2, h3, le_of_eq_of_le (Finset.sum_congr rfl ?_) h4⟩
    intro d _
    rw [← h1]
    split
    · ring
    · ring
  · rintro ⟨h1, h2, h3, h4⟩
    refine ⟨⟨h1, h2⟩, h3, le_of_eq_of_le (Finset.sum_congr rfl ?_) h4⟩
    intro d _
    rw [← h1]
    split
    · ring
    · ring

section perm
variable {bf : List (Face K)} {side : Face K → Nat} {S : List (BFI K)}
  (hperm : S.Perm (bf.zipIdx.map (infoOf side)))
include hperm

theorem mem_S {b : BFI K} : b ∈ S ↔ ∃ k f, bf[k]? = some f ∧ b = infoOf side (f, k) := by
  rw [hperm.mem_iff, List.mem_map]
  constructor
  · rintro ⟨⟨f, k⟩, h, rfl⟩
    exact ⟨k, f, by simpa [List.mem_zipIdx_iff_getElem?] using h, rfl⟩
  · rintro ⟨k, f, h, rfl⟩
    exact ⟨(f, k), by simpa [List.mem_zipIdx_iff_getElem?] using h, rfl⟩

theorem length_S : S.length = bf.length := by rw [hperm.length_eq]; simp

theorem fresh_S : ∀ b ∈ S, b.partnerFace = none := by
  intro b hb
  obtain ⟨k, f, _, rfl⟩ := (mem_S hperm).mp hb
  rfl

theorem fresh_S' : ∀ b ∈ S, b.partnerBid = 0 := by
  intro b hb
  obtain ⟨k, f, _, rfl⟩ := (mem_S hperm).mp hb
  rfl

theorem nodup_faceIndex : (S.map (·.faceIndex)).Nodup := by
  have h1 : (bf.zipIdx.map (infoOf side)).map (·.faceIndex) = List.range bf.length := by
    rw [List.map_map]
    have : ((fun b : BFI K => b.faceIndex) ∘ infoOf side) = Prod.snd := by funext x; rfl
    rw [this, List.zipIdx_map_snd, List.range_eq_range']
  have h2 : (S.map (·.faceIndex)).Perm (List.range bf.length) := by
    rw [← h1]; exact hperm.map _
  exact h2.nodup_iff.mpr List.nodup_range

theorem pos_inj {i j : Nat} {a b : BFI K} (hi : S[i]? = some a) (hj : S[j]? = some b)
    (h : a.faceIndex = b.faceIndex) : i = j := by
  have hnd := nodup_faceIndex hperm
  obtain ⟨hil, hi'⟩ := List.getElem?_eq_some_iff.mp hi
  obtain ⟨hjl, hj'⟩ := List.getElem?_eq_some_iff.mp hj
  rw [List.nodup_iff_injective_getElem] at hnd
  have := @hnd ⟨i, by simpa using hil⟩ ⟨j, by simpa using hjl⟩ (by simp [hi', hj', h])
  simpa using this

theorem acc_iff {i j : Nat} {f g : Face K} {k k' : Nat} (hi : S[i]? = some (infoOf side (f, k)))
    (hj : S[j]? = some (infoOf side (g, k'))) : Acc S i j ↔ PeriodicImage (side f) f (side g) g := by
  rw [← accepts_infoOf side f g k k']
  constructor
  · rintro ⟨a, b, h1, h2, h3⟩
    rw [hi] at h1; rw [hj] at h2; cases h1; cases h2; exact h3
  · intro h; exact ⟨_, _, hi, hj, h⟩

theorem uniqueCand_S
    (hu : ∀ (k k' k'' : Nat) (f g h : Face K), bf[k]? = some f → bf[k']? = some g → bf[k'']? = some h →
      PeriodicImage (side f) f (side g) g → PeriodicImage (side f) f (side h) h → k' = k'') : UniqueCand S := by
  intro i j j' h1 h2
  obtain ⟨a, b, hi, hj, _⟩ := id h1
  obtain ⟨a', b', hi', hj', _⟩ := id h2
  obtain ⟨k, f, hf, rfl⟩ := (mem_S hperm).mp (List.mem_of_getElem? hi)
  obtain ⟨k', g, hg, rfl⟩ := (mem_S hperm).mp (List.mem_of_getElem? hj)
  obtain ⟨k'', h, hh, rfl⟩ := (mem_S hperm).mp (List.mem_of_getElem? hj')
  have e := hu k k' k'' f g h hf hg hh ((acc_iff hperm hi hj).mp h1) ((acc_iff hperm hi hj').mp h2)
  exact pos_inj hperm hj hj' e

end perm

/-! ### Filling the partner table -/

/-- Pair `(x, y)` is registered by one of the infos of `l` (in either order). -/
def Registers (l : List (BFI K)) (x y : Nat) : Prop :=
  ∃ b ∈ l, b.bid < b.partnerBid ∧ ((x = b.bid ∧ y = b.partnerBid) ∨ (x = b.partnerBid ∧ y = b.bid))

/-- One iteration of the loop of `createPeriodicImpl`. -/
def tableStep (b : BCs K) (i : BFI K) : Except (Err × BCs K) (BCs K) := do
  let b1 ← if i.bid < i.partnerBid then b.setPartners i.bid i.partnerBid else pure b
  b1.setCanon i.bid (i.canonPos + 1)

theorem table_fold (r : List (BFI K)) (n : Nat) (hlt : ∀ b ∈ r, b.bid < n) (hnd : (r.map (·.bid)).Nodup)
    (hsym : ∀ b ∈ r, b.partnerBid ≠ 0 → ∃ c ∈ r, c.bid = b.partnerBid ∧ c.partnerBid = b.bid)
    (l : List (BFI K)) :
    (∀ b ∈ l, b ∈ r) → (l.map (·.bid)).Nodup → ∀ t : BCs K, Sized t n →
    (∀ b ∈ l, b.bid < b.partnerBid → t.hdl.partner[b.bid]? = some 0 ∧ t.hdl.partner[b.partnerBid]? = some 0) →
    ∃ t', l.foldlM tableStep t = .ok t' ∧ Sized t' n ∧ t'.flow = t.flow ∧ t'.sat = t.sat ∧
      (∀ x y, Registers l x y → t'.hdl.partner[x]? = some y) ∧
      (∀ x, (∀ y, ¬ Registers l x y) → t'.hdl.partner[x]? = t.hdl.partner[x]?) ∧
      (∀ b ∈ l, t'.hdl.canon[b.bid]? = some (b.canonPos + 1)) ∧
      (∀ x, x ∉ l.map (·.bid) → t'.hdl.canon[x]? = t.hdl.canon[x]?) := by
  have hinj : ∀ b ∈ r, ∀ c ∈ r, b.bid = c.bid → b = c := by
    intro b hb c hc h
    exact List.inj_on_of_nodup_map hnd hb hc h
  induction l with
  | nil =>
    intro _ _ t ht _
    refine ⟨t, rfl, ht, rfl, rfl, ?_, by simp, by simp, by simp⟩
    rintro x y ⟨b, hb, _⟩; simp at hb
  | cons a l ih =>
    intro hsub hnd' t ht hz
    rw [List.map_cons, List.nodup_cons] at hnd'
    have har := hsub a (by simp)
    have hal := hlt a har
    -- the state after one step
    obtain ⟨t1, h1, hs1, hf1, hsat1, hp1, hc1⟩ : ∃ t1, tableStep t a = .ok t1 ∧ Sized t1 n ∧ t1.flow = t.flow ∧
        t1.sat = t.sat ∧
        (∀ x, t1.hdl.partner[x]? = if a.bid < a.partnerBid ∧ x = a.bid then some a.partnerBid
          else if a.bid < a.partnerBid ∧ x = a.partnerBid then some a.bid else t.hdl.partner[x]?) ∧
        t1.hdl.canon = t.hdl.canon.set a.bid (a.canonPos + 1) := by
      by_cases hlt' : a.bid < a.partnerBid
      · obtain ⟨z1, z2⟩ := hz a (by simp) hlt'
        have hbl : a.partnerBid < t.hdl.partner.length := (List.getElem?_eq_some_iff.mp z2).1
        have hal' : a.bid < t.hdl.partner.length := by rw [ht.partner]; exact hal
        have e1 : t.setPartners a.bid a.partnerBid = .ok { t with hdl := { t.hdl with
            partner := (t.hdl.partner.set a.bid a.partnerBid).set a.partnerBid a.bid } } := by
          unfold BCs.setPartners Handler.setPartners
          rw [if_pos ⟨hal', hbl, z1, z2⟩]
        refine ⟨{ t with hdl := ⟨(t.hdl.partner.set a.bid a.partnerBid).set a.partnerBid a.bid,
            t.hdl.canon.set a.bid (a.canonPos + 1)⟩ }, ?_, ?_, rfl, rfl, ?_, rfl⟩
        · unfold tableStep
          rw [if_pos hlt', e1]
          show BCs.setCanon _ _ _ = _
          rw [setCanon_ok _ (by simpa [ht.canon] using hal)]
        · exact ⟨by simp [ht.partner], by simp [ht.canon], ht.flow, ht.sat⟩
        · intro x
          simp only [List.getElem?_set, List.length_set, hal', hbl]
          by_cases hx1 : x = a.bid
          · have : ¬ a.partnerBid = x := by omega
            have h' : ¬ a.partnerBid = a.bid := by omega
            simp [hx1, hlt', h']
          · by_cases hx2 : x = a.partnerBid
            · subst hx2; simp [hlt', hx1]
            · have g1 : ¬ a.bid = x := fun h => hx1 h.symm
              have g2 : ¬ a.partnerBid = x := fun h => hx2 h.symm
              simp [hx1, hx2, g1, g2]
      · refine ⟨{ t with hdl := { t.hdl with canon := t.hdl.canon.set a.bid (a.canonPos + 1) } }, ?_, ?_, rfl, rfl,
          ?_, rfl⟩
        · unfold tableStep
          rw [if_neg hlt']
          show BCs.setCanon _ _ _ = _
          rw [setCanon_ok _ (by simpa [ht.canon] using hal)]
        · exact ⟨ht.partner, by simp [ht.canon], ht.flow, ht.sat⟩
        · intro x; simp [hlt']
    -- the pair of `a` is disjoint from the later pairs
    have hdisj : ∀ b ∈ l, b.bid < b.partnerBid → a.bid < a.partnerBid →
        b.bid ≠ a.bid ∧ b.bid ≠ a.partnerBid ∧ b.partnerBid ≠ a.bid ∧ b.partnerBid ≠ a.partnerBid := by
      intro b hb hblt halt
      have hbr := hsub b (by simp [hb])
      have hba : b.bid ≠ a.bid := fun h => hnd'.1 (List.mem_map.mpr ⟨b, hb, h⟩)
      obtain ⟨ca, hca, hca1, hca2⟩ := hsym a har (by omega)
      obtain ⟨cb, hcb, hcb1, hcb2⟩ := hsym b hbr (by omega)
      refine ⟨hba, ?_, ?_, ?_⟩
      · intro h
        have : b = ca := hinj b hbr ca hca (by omega)
        subst this; omega
      · intro h
        have : cb = a := hinj cb hcb a har (by omega)
        subst this; omega
      · intro h
        have : cb = ca := hinj cb hcb ca hca (by omega)
        subst this; omega
    obtain ⟨t', h2, hs2, hf2, hsat2, hreg, hnreg, hcan, hncan⟩ := ih (fun b hb => hsub b (by simp [hb])) hnd'.2 t1 hs1
      (by
        intro b hb hblt
        obtain ⟨z1, z2⟩ := hz b (by simp [hb]) hblt
        rw [hp1, hp1]
        by_cases halt : a.bid < a.partnerBid
        · obtain ⟨d1, d2, d3, d4⟩ := hdisj b hb hblt halt
          simp [d1, d2, d3, d4, z1, z2]
        · simp [halt, z1, z2])
    refine ⟨t', ?_, hs2, by rw [hf2, hf1], by rw [hsat2, hsat1], ?_, ?_, ?_, ?_⟩
    · rw [List.foldlM_cons, h1]; exact h2
    · rintro x y ⟨b, hb, hblt, hxy⟩
      rcases List.mem_cons.mp hb with rfl | hb
      · -- the pair of `a`: untouched afterwards
        have hn : ∀ y, ¬ Registers l x y := by
          rintro y' ⟨c, hc, hclt, hxy'⟩
          obtain ⟨d1, d2, d3, d4⟩ := hdisj c hc hclt hblt
          omega
        rw [hnreg x hn, hp1]
        rcases hxy with ⟨rfl, rfl⟩ | ⟨rfl, rfl⟩
        · simp [hblt]
        · have : ¬ b.partnerBid = b.bid := by omega
          simp [hblt, this]
      · exact hreg x y ⟨b, hb, hblt, hxy⟩
    · intro x hx
      rw [hnreg x (fun y ⟨b, hb, h⟩ => hx y ⟨b, by simp [hb], h⟩), hp1]
      by_cases halt : a.bid < a.partnerBid
      · have n1 : x ≠ a.bid := fun h => hx a.partnerBid ⟨a, by simp, halt, Or.inl ⟨h, rfl⟩⟩
        have n2 : x ≠ a.partnerBid := fun h => hx a.bid ⟨a, by simp, halt, Or.inr ⟨h, rfl⟩⟩
        simp [n1, n2]
      · simp [halt]
    · intro b hb
      rcases List.mem_cons.mp hb with rfl | hb
      · rw [hncan b.bid hnd'.1, hc1]
        simp [ht.canon, hal]
      · exact hcan b hb
    · intro x hx
      simp only [List.map_cons, List.mem_cons, not_or] at hx
      rw [hncan x hx.2, hc1]
      have : ¬ a.bid = x := fun h => hx.1 h.symm
      simp [this]

/-! ### Storing conditions -/

theorem storeFlow_fold (conds : Nat → BC K) (areas : Nat → K) (n : Nat) (l : List (BFI K)) :
    (∀ b ∈ l, b.bid < n) → (l.map (·.bid)).Nodup →
    (∀ b ∈ l, (conds b.canonPos).type = .neumann → areas b.canonPos ≠ 0) →
    ∀ t : BCs K, Sized t n →
    ∃ t', storeFlowCond t l conds areas = .ok t' ∧ Sized t' n ∧ t'.hdl = t.hdl ∧ t'.sat = t.sat ∧
      (∀ b ∈ l, t'.flow[b.bid]? = some (if (conds b.canonPos).type = .neumann
        then ⟨.neumann, (conds b.canonPos).value * b.area / areas b.canonPos⟩ else conds b.canonPos)) ∧
      (∀ x, x ∉ l.map (·.bid) → t'.flow[x]? = t.flow[x]?) := by
  unfold storeFlowCond
  induction l with
  | nil => intro _ _ _ t ht; exact ⟨t, rfl, ht, rfl, rfl, by simp, by simp⟩
  | cons a l ih =>
    intro hlt hnd har t ht
    rw [List.map_cons, List.nodup_cons] at hnd
    have hal := hlt a (by simp)
    set c : BC K := if (conds a.canonPos).type = .neumann
        then ⟨.neumann, (conds a.canonPos).value * a.area / areas a.canonPos⟩ else conds a.canonPos with hc
    have hstep : (if (conds a.canonPos).type = .neumann then
        if areas a.canonPos = 0 then .error (.ub, t)
        else t.setFlow a.bid ⟨.neumann, (conds a.canonPos).value * a.area / areas a.canonPos⟩
      else t.setFlow a.bid (conds a.canonPos) : Except (Err × BCs K) (BCs K)) =
        .ok { t with flow := t.flow.set a.bid c } := by
      by_cases h : (conds a.canonPos).type = .neumann
      · rw [if_pos h, if_neg (har a (by simp) h), setFlow_ok _ (by rw [ht.flow]; exact hal), hc, if_pos h]
      · rw [if_neg h, setFlow_ok _ (by rw [ht.flow]; exact hal), hc, if_neg h]
    obtain ⟨t', h1, h2, h3, h4, h5, h6⟩ := ih (fun b hb => hlt b (by simp [hb])) hnd.2
      (fun b hb => har b (by simp [hb])) { t with flow := t.flow.set a.bid c }
      ⟨ht.partner, ht.canon, by simp [ht.flow], ht.sat⟩
    refine ⟨t', ?_, h2, h3, h4, ?_, ?_⟩
    · rw [List.foldlM_cons, hstep]; exact h1
    · intro b hb
      rcases List.mem_cons.mp hb with rfl | hb
      · rw [h6 b.bid hnd.1]; simp [ht.flow, hal, hc]
      · exact h5 b hb
    · intro x hx
      simp only [List.map_cons, List.mem_cons, not_or] at hx
      rw [h6 x hx.2]
      have : ¬ a.bid = x := fun h => hx.1 h.symm
      simp [this]

theorem storeSat_fold (conds : Nat → BC K) (n : Nat) (l : List (BFI K)) :
    (∀ b ∈ l, b.bid < n) → (l.map (·.bid)).Nodup → ∀ t : BCs K, Sized t n →
    ∃ t', storeSatCond t l conds = .ok t' ∧ Sized t' n ∧ t'.hdl = t.hdl ∧ t'.flow = t.flow ∧
      (∀ b ∈ l, t'.sat[b.bid]? = some (conds b.canonPos)) ∧
      (∀ x, x ∉ l.map (·.bid) → t'.sat[x]? = t.sat[x]?) := by
  unfold storeSatCond
  induction l with
  | nil => intro _ _ t ht; exact ⟨t, rfl, ht, rfl, rfl, by simp, by simp⟩
  | cons a l ih =>
    intro hlt hnd t ht
    rw [List.map_cons, List.nodup_cons] at hnd
    have hal := hlt a (by simp)
    obtain ⟨t', h1, h2, h3, h4, h5, h6⟩ := ih (fun b hb => hlt b (by simp [hb])) hnd.2
      { t with sat := t.sat.set a.bid (conds a.canonPos) } ⟨ht.partner, ht.canon, ht.flow, by simp [ht.sat]⟩
    refine ⟨t', ?_, h2, h3, h4, ?_, ?_⟩
    · rw [List.foldlM_cons, setSat_ok _ (by rw [ht.sat]; exact hal)]; exact h1
    · intro b hb
      rcases List.mem_cons.mp hb with rfl | hb
      · rw [h6 b.bid hnd.1]; simp [ht.sat, hal]
      · exact h5 b hb
    · intro x hx
      simp only [List.map_cons, List.mem_cons, not_or] at hx
      rw [h6 x hx.2]
      have : ¬ a.bid = x := fun h => hx.1 h.symm
      simp [this]

theorem sideArea_eq (l : List (BFI K)) (s : Nat) :
    sideArea l s = ((l.filter (fun b => b.canonPos = s)).map (·.area)).sum := by
  have key : ∀ (l : List (BFI K)) (acc : K),
      l.foldl (fun acc b => if b.canonPos = s then acc + b.area else acc) acc =
        acc + ((l.filter (fun b => b.canonPos = s)).map (·.area)).sum := by
    intro l
    induction l with
    | nil => intro acc; simp
    | cons a l ih =>
      intro acc
      rw [List.foldl_cons, ih]
      by_cases h : a.canonPos = s <;> simp [h, add_assoc]
  unfold sideArea
  rw [key, zero_add]

end Verif.Boundary
