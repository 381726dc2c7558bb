import Verif.Lemmas.PeriodicTable

set_option linter.unusedSectionVars false

namespace Verif.Boundary

variable {K : Type} [Field K] [LinearOrder K] [IsStrictOrderedRing K]

theorem canonPosOf_lt {tol : K} {low hi c : Fin 3 → K} {s : Nat} (h : canonPosOf tol low hi c = some s) : s < 6 := by
  unfold canonPosOf at h
  obtain ⟨d, _, hd⟩ := List.exists_of_findSome?_eq_some h
  have := d.2
  split at hd
  · cases hd; omega
  · split at hd
    · cases hd; omega
    · cases hd

/-- `dress` in terms of the described partner. -/
theorem dress_some {S : List (BFI K)} {p : Nat → Option Nat} {i j : Nat} {b c : BFI K} (h : p i = some j)
    (hj : S[j]? = some c) : (dress S p i b).partnerFace = some c.faceIndex ∧ (dress S p i b).partnerBid = c.bid := by
  unfold dress; simp [h, hj]

theorem dress_none {S : List (BFI K)} {p : Nat → Option Nat} {i : Nat} {b : BFI K} (h : p i = none) :
    dress S p i b = b := by unfold dress; simp [h]

section
variable {bf : List (Face K)} {side : Face K → Nat} {S : List (BFI K)}
  (hperm : S.Perm (bf.zipIdx.map (infoOf side)))
include hperm

theorem mem_dressAll {p : Nat → Option Nat} {b : BFI K} (hb : b ∈ dressAll S p) :
    ∃ i k f, S[i]? = some (infoOf side (f, k)) ∧ bf[k]? = some f ∧ b = dress S p i (infoOf side (f, k)) := by
  obtain ⟨i, hi⟩ := List.mem_iff_getElem?.mp hb
  rw [dressAll_get] at hi
  cases hS : S[i]? with
  | none => rw [hS] at hi; cases hi
  | some a =>
    rw [hS] at hi
    obtain ⟨k, f, hf, rfl⟩ := (mem_S hperm).mp (List.mem_of_getElem? hS)
    exact ⟨i, k, f, hS, hf, by simpa using hi.symm⟩

theorem exists_dressAll {p : Nat → Option Nat} {k : Nat} {f : Face K} (hf : bf[k]? = some f) :
    ∃ i, S[i]? = some (infoOf side (f, k)) ∧ dress S p i (infoOf side (f, k)) ∈ dressAll S p := by
  have : infoOf side (f, k) ∈ S := (mem_S hperm).mpr ⟨k, f, hf, rfl⟩
  obtain ⟨i, hi⟩ := List.mem_iff_getElem?.mp this
  refine ⟨i, hi, List.mem_iff_getElem?.mpr ⟨i, ?_⟩⟩
  rw [dressAll_get, hi]; rfl

theorem dressAll_bids {p : Nat → Option Nat} : ((dressAll S p).map (·.bid)).Perm (bf.map (·.bid)) := by
  have h1 : (dressAll S p).map (·.bid) = S.map (·.bid) := by
    apply List.ext_getElem?
    intro i
    rw [List.getElem?_map, List.getElem?_map, dressAll_get]
    cases S[i]? with
    | none => rfl
    | some a => simp [(dress_static S p i a).2.1]
  rw [h1]
  refine (hperm.map _).trans ?_
  have : (bf.zipIdx.map (infoOf side)).map (·.bid) = bf.map (·.bid) := by
    apply List.ext_getElem?
    intro i
    simp only [List.getElem?_map, List.getElem?_zipIdx]
    cases bf[i]? <;> simp [infoOf]
  rw [this]

theorem dressAll_sideArea {p : Nat → Option Nat} (s : Nat) :
    sideArea (dressAll S p) s = ((bf.filter (fun f => side f = s)).map (·.area)).sum := by
  rw [sideArea_eq]
  have h1 : ((dressAll S p).filter (fun b => b.canonPos = s)).map (·.area) =
      (S.filter (fun b => b.canonPos = s)).map (·.area) := by
    have hmap : (dressAll S p).map (fun b => (b.canonPos, b.area)) = S.map (fun b => (b.canonPos, b.area)) := by
      apply List.ext_getElem?
      intro i
      rw [List.getElem?_map, List.getElem?_map, dressAll_get]
      cases S[i]? with
      | none => rfl
      | some a => simp [(dress_static S p i a).2.2.1, (dress_static S p i a).2.2.2.1]
    have conv : ∀ l : List (BFI K), (l.filter (fun b => b.canonPos = s)).map (·.area) =
        ((l.map (fun b => (b.canonPos, b.area))).filter (fun x => x.1 = s)).map (·.2) := by
      intro l
      rw [List.filter_map, List.map_map]; rfl
    rw [conv, conv, hmap]
  rw [h1]
  have h2 := ((hperm.filter (fun b => b.canonPos = s)).map (·.area)).sum_eq
  rw [h2, List.filter_map, List.map_map]
  have h3 : bf.zipIdx.filter ((fun b : BFI K => decide (b.canonPos = s)) ∘ infoOf side) =
      bf.zipIdx.filter ((fun f => decide (side f = s)) ∘ Prod.fst) := by congr 1
  rw [h3]
  have h4 : ((bf.zipIdx.filter ((fun f => decide (side f = s)) ∘ Prod.fst)).map ((fun b : BFI K => b.area) ∘ infoOf side)) =
      (((bf.zipIdx.map Prod.fst).filter (fun f => decide (side f = s))).map (·.area)) := by
    rw [List.filter_map, List.map_map]; rfl
  rw [h4, List.zipIdx_map_fst]

end

/-- Everything the rest of the code needs to know about a successful `createPeriodicImpl`. -/
structure ImplOk (bf : List (Face K)) (side : Face K → Nat) (per : Nat → Bool) (b : BCs K)
    (infos : List (BFI K)) : Prop where
  sized : Sized b (bf.length + 1)
  flow : b.flow = List.replicate (bf.length + 1) flowDefault
  sat : b.sat = List.replicate (bf.length + 1) satDefault
  canon : ∀ f ∈ bf, b.hdl.getCanon f.bid = some (side f + 1)
  partner : ∀ f ∈ bf, ∀ g ∈ bf, b.hdl.getPartner f.bid = some g.bid ↔
    per (side f) = true ∧ PeriodicImage (side f) f (side g) g
  nopartner : ∀ f ∈ bf, (∀ g ∈ bf, ¬ (per (side f) = true ∧ PeriodicImage (side f) f (side g) g)) →
    b.hdl.getPartner f.bid = some 0
  zero : b.hdl.getPartner 0 = some 0 ∧ b.hdl.getCanon 0 = some 0
  nodup : (infos.map (·.bid)).Nodup
  infoFace : ∀ i ∈ infos, ∃ f ∈ bf, i.bid = f.bid ∧ i.canonPos = side f ∧ i.area = f.area
  faceInfo : ∀ f ∈ bf, ∃ i ∈ infos, i.bid = f.bid ∧ i.canonPos = side f ∧ i.area = f.area
  areas : ∀ s, sideArea infos s = ((bf.filter (fun f => side f = s)).map (·.area)).sum

theorem flagsAgree_opp {per : Nat → Bool} (h : FlagsAgree per) {s : Nat} (hs : s < 6) :
    per (oppPos s) = per s := by
  obtain ⟨h1, h2, h3⟩ := h
  have : s = 0 ∨ s = 1 ∨ s = 2 ∨ s = 3 ∨ s = 4 ∨ s = 5 := by omega
  rcases this with rfl | rfl | rfl | rfl | rfl | rfl <;> simp [oppPos, h1, h2, h3]

theorem createPeriodicImpl_ok (sort : List (BFI K) → List (BFI K)) (hsort : ∀ l, (sort l).Perm l) (fbcs : BCs K)
    (faces : List (Face K)) (per : Nat → Bool) (tol : K) (side : Face K → Nat)
    (hu : UniqueIdsM (boundaryFaces faces)) (hbox : OnBoxM tol (boundaryFaces faces) side)
    (hsi : SingleImage (boundaryFaces faces) side) (hfl : FlagsAgree per) :
    ∃ b infos, createPeriodicImpl sort fbcs faces per tol = .ok (b, infos) ∧
      ImplOk (boundaryFaces faces) side per b infos := by
  set bf := boundaryFaces faces with hbf
  obtain ⟨hnd, hmax⟩ := hu
  have hinfo := makeInfos_ok hbox
  set S := sort (bf.zipIdx.map (infoOf side)) with hS
  have hperm : S.Perm (bf.zipIdx.map (infoOf side)) := hsort _
  -- flags are only looked at on real sides: extend them symmetrically
  set per' : Nat → Bool := fun s => if s < 6 then per s else false with hper'
  have hpp : ∀ s, per' (oppPos s) = per' s := by
    intro s
    simp only [hper']
    by_cases hs : s < 6
    · have : oppPos s < 6 := by unfold oppPos; split <;> omega
      simp [hs, this, flagsAgree_opp hfl hs]
    · have : ¬ oppPos s < 6 := by unfold oppPos; split <;> omega
      simp [hs, this]
  have hside : ∀ f ∈ bf, side f < 6 := fun f hf => canonPosOf_lt (hbox f hf)
  have hSside : ∀ b ∈ S, b.canonPos < 6 := by
    intro b hb
    obtain ⟨k, f, hf, rfl⟩ := (mem_S hperm).mp hb
    exact hside f (List.mem_of_getElem? hf)
  have hastep : ∀ p i, astep S per p i = astep S per' p i := by
    intro p i
    unfold astep
    cases hi : S[i]? with
    | none => rfl
    | some a =>
      have := hSside a (List.mem_of_getElem? hi)
      simp [hper', this]
  have hfold : (List.range S.length).foldl (astep S per) (fun _ => none) =
      (List.range S.length).foldl (astep S per') (fun _ => none) := by
    congr 1; funext p i; exact hastep p i
  set p := (List.range S.length).foldl (astep S per') (fun _ => none) with hp
  have huc : UniqueCand S := by
    apply uniqueCand_S hperm
    intro k k' k'' f g h hf hg hh h1 h2
    have := hsi f (List.mem_of_getElem? hf) g (List.mem_of_getElem? hg) h (List.mem_of_getElem? hh) h1 h2
    rw [List.nodup_iff_injective_getElem] at hnd
    obtain ⟨l1, e1⟩ := List.getElem?_eq_some_iff.mp hg
    obtain ⟨l2, e2⟩ := List.getElem?_eq_some_iff.mp hh
    have := @hnd ⟨k', by simpa using l1⟩ ⟨k'', by simpa using l2⟩ (by simp [e1, e2, this])
    simpa using this
  have hiff : ∀ {i j : Nat} {a : BFI K}, S[i]? = some a → (p i = some j ↔ per' a.canonPos = true ∧ Acc S i j) :=
    fun {i j a} ha => loop_iff S per' huc hpp ha
  set infos := dressAll S p with hinfos
  have hfind : findPeriodicPartners sort faces per tol = .ok infos := by
    unfold findPeriodicPartners
    simp only [← hbf, hmax, ne_eq, not_true_eq_false, if_false, hinfo, ← hS]
    rw [partnerLoop_dress S per (fresh_S hperm), hfold]
  have hlen : infos.length = bf.length := by rw [hinfos, dressAll_length, length_S hperm]
  have hpos : ∀ f ∈ bf, f.bid ≠ 0 := fun f hf => (mem_boundaryFaces.mp (hbf ▸ hf)).2
  have hle : ∀ f ∈ bf, f.bid ≤ bf.length := fun f hf => hmax ▸ le_maxBid bf f hf
  -- partner of an info
  have hpartner : ∀ (i k : Nat) (f : Face K), S[i]? = some (infoOf side (f, k)) → bf[k]? = some f →
      (∀ j, p i = some j → ∃ k' g, S[j]? = some (infoOf side (g, k')) ∧ bf[k']? = some g ∧
        per (side f) = true ∧ PeriodicImage (side f) f (side g) g) := by
    intro i k f hi hf j hj
    obtain ⟨hper, hacc⟩ := (hiff hi).mp hj
    obtain ⟨a, b, ha, hb, _⟩ := id hacc
    obtain ⟨k', g, hg, rfl⟩ := (mem_S hperm).mp (List.mem_of_getElem? hb)
    refine ⟨k', g, hb, hg, ?_, (acc_iff hperm hi hb).mp hacc⟩
    have h6 := hside f (List.mem_of_getElem? hf)
    simpa [hper', infoOf, h6] using hper
  have hndi : (infos.map (·.bid)).Nodup := (dressAll_bids hperm).nodup_iff.mpr hnd
  have hstatic : ∀ b ∈ infos, ∃ f ∈ bf, b.bid = f.bid ∧ b.canonPos = side f ∧ b.area = f.area := by
    intro b hb
    obtain ⟨i, k, f, hi, hf, rfl⟩ := mem_dressAll hperm hb
    obtain ⟨_, s2, s3, s4, _⟩ := dress_static S p i (infoOf side (f, k))
    exact ⟨f, List.mem_of_getElem? hf, s2, s3, s4⟩
  have hsym : ∀ b ∈ infos, b.partnerBid ≠ 0 → ∃ c ∈ infos, c.bid = b.partnerBid ∧ c.partnerBid = b.bid := by
    intro b hb hne
    obtain ⟨i, k, f, hi, hf, rfl⟩ := mem_dressAll hperm hb
    cases hpi : p i with
    | none => rw [dress_none hpi] at hne; exact absurd rfl hne
    | some j =>
      obtain ⟨k', g, hj, hg, hpf, himg⟩ := hpartner i k f hi hf j hpi
      have hback : p j = some i := loop_symm S per' huc (List.range S.length) i j hpi
      refine ⟨dress S p j (infoOf side (g, k')), ?_, ?_, ?_⟩
      · rw [hinfos]; exact List.mem_iff_getElem?.mpr ⟨j, by rw [dressAll_get, hj]; rfl⟩
      · rw [(dress_some hpi hj).2, (dress_static S p j _).2.1]
      · rw [(dress_some hback hi).2, (dress_static S p i _).2.1]
  obtain ⟨t', hfoldT, hsz, hfl', hst', hreg, hnreg, hcan, hncan⟩ := table_fold infos (bf.length + 1)
    (by
      intro b hb
      obtain ⟨f, hf, h1, _⟩ := hstatic b hb
      have := hle f hf; omega)
    hndi hsym infos (fun b hb => hb) hndi ((fbcs.clear).resize (bf.length + 1)) (sized_resize _ _)
    (by
      intro b hb hlt
      have hb' : b.bid < bf.length + 1 := by
        obtain ⟨f, hf, h1, _⟩ := hstatic b hb
        have := hle f hf; omega
      obtain ⟨c, hc, hc1, hc2⟩ := hsym b hb (by omega)
      have hc' : b.partnerBid < bf.length + 1 := by
        obtain ⟨f, hf, h1, _⟩ := hstatic c hc
        have := hle f hf; omega
      simp only [BCs.resize, BCs.clear, Handler.clear, Handler.resize, getElem?_resizeList]
      simp [hb', hc'])
  have hb0p : ∀ x, x < bf.length + 1 → ((fbcs.clear).resize (bf.length + 1)).hdl.partner[x]? = some 0 := by
    intro x hx
    simp only [BCs.resize, BCs.clear, Handler.clear, Handler.resize, getElem?_resizeList]
    simp [hx]
  -- the table entry of an info is its partner id
  have hentry : ∀ b ∈ infos, t'.hdl.partner[b.bid]? = some b.partnerBid := by
    intro b hb
    have hb' : b.bid < bf.length + 1 := by
      obtain ⟨f, hf, h1, _⟩ := hstatic b hb
      have := hle f hf; omega
    rcases Nat.lt_trichotomy b.bid b.partnerBid with h | h | h
    · exact hreg _ _ ⟨b, hb, h, Or.inl ⟨rfl, rfl⟩⟩
    · -- impossible: a face is not its own image
      exfalso
      obtain ⟨i, k, f, hi, hf, rfl⟩ := mem_dressAll hperm hb
      cases hpi : p i with
      | none =>
        rw [dress_none hpi] at h
        exact hpos f (List.mem_of_getElem? hf) h
      | some j =>
        obtain ⟨k', g, hj, hg, hpf, himg⟩ := hpartner i k f hi hf j hpi
        rw [(dress_some hpi hj).2, (dress_static S p i _).2.1] at h
        have hfg : f = g := List.inj_on_of_nodup_map hnd (List.mem_of_getElem? hf) (List.mem_of_getElem? hg) h
        subst hfg
        exact himg.2.1 rfl
    · by_cases h0 : b.partnerBid = 0
      · rw [hnreg b.bid, h0]
        · exact hb0p _ hb'
        · rintro y ⟨c, hc, hlt, ⟨h1, h2⟩ | ⟨h1, h2⟩⟩
          · have : b = c := List.inj_on_of_nodup_map hndi hb hc h1
            subst this; omega
          · obtain ⟨d, hd, hd1, hd2⟩ := hsym c hc (by omega)
            have : b = d := List.inj_on_of_nodup_map hndi hb hd (by omega)
            subst this
            obtain ⟨f, hf, e, _⟩ := hstatic c hc
            have := hpos f hf; omega
      · obtain ⟨c, hc, hc1, hc2⟩ := hsym b hb h0
        exact hreg _ _ ⟨c, hc, by omega, Or.inr ⟨by omega, by omega⟩⟩
  refine ⟨t', infos, ?_, ?_⟩
  · unfold createPeriodicImpl
    rw [hfind]
    simp only [hlen]
    change (do
      let b ← infos.foldlM tableStep ((fbcs.clear).resize (bf.length + 1))
      pure (b, infos)) = _
    rw [hfoldT]; rfl
  · refine ⟨hsz, ?_, ?_, ?_, ?_, ?_, ?_, hndi, hstatic, ?_, ?_⟩
    · rw [hfl']; simp [BCs.resize, BCs.clear, resizeList]
    · rw [hst']; simp [BCs.resize, BCs.clear, resizeList]
    · intro f hf
      obtain ⟨k, hk⟩ := List.mem_iff_getElem?.mp hf
      obtain ⟨i, hi, hmem⟩ := exists_dressAll hperm (p := p) hk
      have := hcan _ hmem
      rw [(dress_static S p i _).2.1, (dress_static S p i _).2.2.1] at this
      exact this
    · intro f hf g hg
      obtain ⟨k, hk⟩ := List.mem_iff_getElem?.mp hf
      obtain ⟨k', hk'⟩ := List.mem_iff_getElem?.mp hg
      obtain ⟨i, hi, hmem⟩ := exists_dressAll hperm (p := p) hk
      obtain ⟨j, hj, hmem'⟩ := exists_dressAll hperm (p := p) hk'
      have he := hentry _ hmem
      rw [(dress_static S p i _).2.1] at he
      change t'.hdl.partner[f.bid]? = _ at he
      have h6 := hside f hf
      unfold Handler.getPartner
      rw [he]
      constructor
      · intro h
        cases hpi : p i with
        | none =>
          rw [dress_none hpi] at h
          have : (0 : Nat) = g.bid := by simpa [infoOf] using h
          exact absurd this.symm (hpos g hg)
        | some m =>
          obtain ⟨k'', g', hm, hg', hpf, himg⟩ := hpartner i k f hi hk m hpi
          rw [(dress_some hpi hm).2] at h
          have : g'.bid = g.bid := by simpa [infoOf] using h
          have hgg : g' = g := List.inj_on_of_nodup_map hnd (List.mem_of_getElem? hg') hg this
          subst hgg
          exact ⟨hpf, himg⟩
      · rintro ⟨hpf, himg⟩
        have hpi : p i = some j := (hiff hi).mpr
          ⟨by simp [hper', infoOf, h6, hpf], (acc_iff hperm hi hj).mpr himg⟩
        rw [(dress_some hpi hj).2]; rfl
    · intro f hf hno
      obtain ⟨k, hk⟩ := List.mem_iff_getElem?.mp hf
      obtain ⟨i, hi, hmem⟩ := exists_dressAll hperm (p := p) hk
      have he := hentry _ hmem
      rw [(dress_static S p i _).2.1] at he
      change t'.hdl.partner[f.bid]? = _ at he
      unfold Handler.getPartner
      rw [he]
      cases hpi : p i with
      | none => rw [dress_none hpi]; rfl
      | some m =>
        obtain ⟨k'', g', hm, hg', hpf, himg⟩ := hpartner i k f hi hk m hpi
        exact absurd ⟨hpf, himg⟩ (hno g' (List.mem_of_getElem? hg'))
    · have hz : ∀ b ∈ infos, b.bid ≠ 0 := by
        intro b hb
        obtain ⟨f, hf, h1, _⟩ := hstatic b hb
        rw [h1]; exact hpos f hf
      constructor
      · unfold Handler.getPartner
        rw [hnreg 0]
        · exact hb0p 0 (by omega)
        · rintro y ⟨c, hc, hlt, ⟨h1, h2⟩ | ⟨h1, h2⟩⟩
          · exact hz c hc h1.symm
          · omega
      · unfold Handler.getCanon
        rw [hncan 0]
        · simp only [BCs.resize, BCs.clear, Handler.clear, Handler.resize, getElem?_resizeList]
          simp
        · intro h
          obtain ⟨b, hb, h0⟩ := List.mem_map.mp h
          exact hz b hb h0
    · intro f hf
      obtain ⟨k, hk⟩ := List.mem_iff_getElem?.mp hf
      obtain ⟨i, hi, hmem⟩ := exists_dressAll hperm (p := p) hk
      obtain ⟨_, s2, s3, s4, _⟩ := dress_static S p i (infoOf side (f, k))
      exact ⟨_, hmem, s2, s3, s4⟩
    · intro s
      exact dressAll_sideArea hperm s

end Verif.Boundary
