import Verif.Model.Boundary
import Mathlib.Tactic.Ring
import Mathlib.Tactic.FieldSimp
import Mathlib.Tactic.Linarith
import Mathlib.Tactic.Positivity
import Mathlib.Data.List.Nodup

set_option linter.unusedSectionVars false

namespace Verif.Boundary

theorem getElem?_resizeList {α : Type} (l : List α) (n : Nat) (d : α) (i : Nat) :
    (resizeList l n d)[i]? = if i < n then (if i < l.length then l[i]? else some d) else none := by
  unfold resizeList
  rw [List.getElem?_append]
  simp only [List.length_take, List.getElem?_take, List.getElem?_replicate]
  by_cases h1 : i < n <;> by_cases h2 : i < l.length <;> simp [h1, h2] <;> omega

theorem length_resizeList {α : Type} (l : List α) (n : Nat) (d : α) : (resizeList l n d).length = n := by
  simp [resizeList]; omega

variable {K : Type}

/-! ### Success descriptions of single writes -/

theorem setFlow_ok (b : BCs K) {i : Nat} (h : i < b.flow.length) (c : BC K) :
    b.setFlow i c = .ok { b with flow := b.flow.set i c } := by simp [BCs.setFlow, h]

theorem setSat_ok (b : BCs K) {i : Nat} (h : i < b.sat.length) (c : BC K) :
    b.setSat i c = .ok { b with sat := b.sat.set i c } := by simp [BCs.setSat, h]

theorem setCanon_ok (b : BCs K) {i : Nat} (h : i < b.hdl.canon.length) (c : Nat) :
    b.setCanon i c = .ok { b with hdl := { b.hdl with canon := b.hdl.canon.set i c } } := by
  simp [BCs.setCanon, Handler.setCanon, h]

/-- All tables have the same length `n`. -/
structure Sized (b : BCs K) (n : Nat) : Prop where
  partner : b.hdl.partner.length = n
  canon : b.hdl.canon.length = n
  flow : b.flow.length = n
  sat : b.sat.length = n

theorem sized_resize [Zero K] [One K] (b : BCs K) (n : Nat) : Sized (b.resize n) n :=
  ⟨length_resizeList .., length_resizeList .., length_resizeList .., length_resizeList ..⟩

section
variable [Field K] [LinearOrder K] [IsStrictOrderedRing K]

/-! ### Folds for the bounding box -/

theorem foldl_min_le (f : Face K → K) (l : List (Face K)) :
    ∀ s, l.foldl (fun m x => min m (f x)) s ≤ s ∧ ∀ x ∈ l, l.foldl (fun m x => min m (f x)) s ≤ f x := by
  induction l with
  | nil => intro s; simp
  | cons a l ih =>
    intro s
    obtain ⟨h1, h2⟩ := ih (min s (f a))
    refine ⟨le_trans h1 (min_le_left _ _), ?_⟩
    intro x hx
    rcases List.mem_cons.mp hx with rfl | hx
    · exact le_trans h1 (min_le_right _ _)
    · exact h2 x hx

theorem foldl_min_mem (f : Face K → K) (l : List (Face K)) :
    ∀ s, l.foldl (fun m x => min m (f x)) s = s ∨ ∃ x ∈ l, l.foldl (fun m x => min m (f x)) s = f x := by
  induction l with
  | nil => intro s; simp
  | cons a l ih =>
    intro s
    rcases ih (min s (f a)) with h | ⟨x, hx, h⟩
    · rw [List.foldl_cons, h]
      rcases min_choice s (f a) with h' | h'
      · exact Or.inl h'
      · exact Or.inr ⟨a, by simp, h'⟩
    · exact Or.inr ⟨x, by simp [hx], by rw [List.foldl_cons, h]⟩

theorem foldl_max_ge (f : Face K → K) (l : List (Face K)) :
    ∀ s, s ≤ l.foldl (fun m x => max m (f x)) s ∧ ∀ x ∈ l, f x ≤ l.foldl (fun m x => max m (f x)) s := by
  induction l with
  | nil => intro s; simp
  | cons a l ih =>
    intro s
    obtain ⟨h1, h2⟩ := ih (max s (f a))
    refine ⟨le_trans (le_max_left _ _) h1, ?_⟩
    intro x hx
    rcases List.mem_cons.mp hx with rfl | hx
    · exact le_trans (le_max_right _ _) h1
    · exact h2 x hx

theorem foldl_max_mem (f : Face K → K) (l : List (Face K)) :
    ∀ s, l.foldl (fun m x => max m (f x)) s = s ∨ ∃ x ∈ l, l.foldl (fun m x => max m (f x)) s = f x := by
  induction l with
  | nil => intro s; simp
  | cons a l ih =>
    intro s
    rcases ih (max s (f a)) with h | ⟨x, hx, h⟩
    · rw [List.foldl_cons, h]
      rcases max_choice s (f a) with h' | h'
      · exact Or.inl h'
      · exact Or.inr ⟨a, by simp, h'⟩
    · exact Or.inr ⟨x, by simp [hx], by rw [List.foldl_cons, h]⟩

theorem lowOf_le (bf : List (Face K)) (d : Fin 3) : ∀ f ∈ bf, lowOf bf d ≤ f.centroid d :=
  (foldl_min_le (fun f => f.centroid d) bf _).2

theorem le_hiOf (bf : List (Face K)) (d : Fin 3) : ∀ f ∈ bf, f.centroid d ≤ hiOf bf d :=
  (foldl_max_ge (fun f => f.centroid d) bf _).2

theorem maxBid_foldl (bf : List (Face K)) : ∀ s, (∀ f ∈ bf, f.bid ≤ bf.foldl (fun m f => max m f.bid) s) ∧
    s ≤ bf.foldl (fun m f => max m f.bid) s := by
  induction bf with
  | nil => intro s; simp
  | cons a l ih =>
    intro s
    obtain ⟨h1, h2⟩ := ih (max s a.bid)
    refine ⟨?_, le_trans (le_max_left _ _) h2⟩
    intro f hf
    rcases List.mem_cons.mp hf with rfl | hf
    · exact le_trans (le_max_right _ _) h2
    · exact h1 f hf

theorem le_maxBid (bf : List (Face K)) : ∀ f ∈ bf, f.bid ≤ maxBid bf := (maxBid_foldl bf 0).1

theorem mem_boundaryFaces {faces : List (Face K)} {f : Face K} :
    f ∈ boundaryFaces faces ↔ f ∈ faces ∧ f.bid ≠ 0 := by simp [boundaryFaces]

/-- Positive distinct ids whose maximum is their number are exactly `1 .. n`. -/
theorem bids_complete (bf : List (Face K)) (hpos : ∀ f ∈ bf, f.bid ≠ 0) (hnd : (bf.map (·.bid)).Nodup)
    (hmax : ∀ f ∈ bf, f.bid ≤ bf.length) (i : Nat) (h1 : 1 ≤ i) (h2 : i ≤ bf.length) :
    ∃ f ∈ bf, f.bid = i := by
  have hsub : (bf.map (·.bid)).toFinset ⊆ Finset.Icc 1 bf.length := by
    intro x hx
    simp only [List.mem_toFinset, List.mem_map] at hx
    obtain ⟨f, hf, rfl⟩ := hx
    have := hpos f hf
    have := hmax f hf
    simp; omega
  have hcard : (bf.map (·.bid)).toFinset.card = bf.length := by
    rw [List.toFinset_card_of_nodup hnd, List.length_map]
  have heq : (bf.map (·.bid)).toFinset = Finset.Icc 1 bf.length :=
    Finset.eq_of_subset_of_card_le hsub (by rw [hcard]; simp)
  have : i ∈ (bf.map (·.bid)).toFinset := by rw [heq]; simp; omega
  simpa using this

/-! ### `createLinear` -/

/-- The linear profile (independent formula). -/
def linPressure (low hi : Fin 3 → K) (pdrop : K) (d : Fin 3) (c : Fin 3 → K) : K :=
  pdrop * (1 - (c d - low d) / (hi d - low d))

theorem linearFace_ok (low hi : Fin 3 → K) (pdrop : K) (d : Fin 3) (s : K) (tw : Bool) (tol : K) (b : BCs K)
    (f : Face K) (n : Nat) (hb : Sized b n) (hf : f.bid < n) (hd : hi d - low d ≠ 0) (cp : Nat)
    (hcp : canonPosOf tol low hi f.centroid = some cp) :
    linearFace low hi pdrop d s tw tol b f = .ok
      { hdl := { b.hdl with canon := b.hdl.canon.set f.bid (cp + 1) }
        flow := b.flow.set f.bid
          (if tw = true ∧ 4 ≤ cp then ⟨.neumann, 0⟩ else ⟨.dirichlet, linPressure low hi pdrop d f.centroid⟩)
        sat := b.sat.set f.bid ⟨.dirichlet, s⟩ } := by
  unfold linearFace
  rw [hcp]
  simp only [hd, if_false]
  rw [setCanon_ok b (by rw [hb.canon]; exact hf)]
  show (do
    let b2 ← BCs.setSat _ _ _
    _) = _
  rw [setSat_ok _ (by simpa [hb.sat] using hf)]
  show (do
    let b3 ← BCs.setFlow _ _ _
    _) = _
  rw [setFlow_ok _ (by simpa [hb.flow] using hf)]
  show (if _ then _ else _) = _
  by_cases h : tw = true ∧ 4 ≤ cp
  · rw [if_pos h, if_pos h, setFlow_ok _ (by simpa [hb.flow] using hf)]
    simp
  · rw [if_neg h, if_neg h]; rfl

theorem linear_fold (low hi : Fin 3 → K) (pdrop : K) (d : Fin 3) (s : K) (tw : Bool) (tol : K) (n : Nat)
    (hd : hi d - low d ≠ 0) (cpf : Face K → Nat) (l : List (Face K)) :
    (l.map (·.bid)).Nodup → (∀ f ∈ l, f.bid < n) →
    (∀ f ∈ l, canonPosOf tol low hi f.centroid = some (cpf f)) →
    ∀ b : BCs K, Sized b n →
    ∃ r, l.foldlM (linearFace low hi pdrop d s tw tol) b = .ok r ∧ Sized r n ∧
      r.hdl.partner = b.hdl.partner ∧
      (∀ f ∈ l, r.hdl.canon[f.bid]? = some (cpf f + 1) ∧
        r.flow[f.bid]? = some (if tw = true ∧ 4 ≤ cpf f then ⟨.neumann, 0⟩
          else ⟨.dirichlet, linPressure low hi pdrop d f.centroid⟩) ∧
        r.sat[f.bid]? = some ⟨.dirichlet, s⟩) ∧
      (∀ i, i ∉ l.map (·.bid) → r.hdl.canon[i]? = b.hdl.canon[i]? ∧ r.flow[i]? = b.flow[i]? ∧
        r.sat[i]? = b.sat[i]?) := by
  induction l with
  | nil => intro _ _ _ b hb; exact ⟨b, rfl, hb, rfl, by simp, by simp⟩
  | cons a l ih =>
    intro hnd hlt hcp b hb
    rw [List.map_cons, List.nodup_cons] at hnd
    have ha := hlt a (by simp)
    have hstep := linearFace_ok low hi pdrop d s tw tol b a n hb ha hd (cpf a) (hcp a (by simp))
    set b1 : BCs K := { hdl := { b.hdl with canon := b.hdl.canon.set a.bid (cpf a + 1) }
                        flow := b.flow.set a.bid
                          (if tw = true ∧ 4 ≤ cpf a then ⟨.neumann, 0⟩
                            else ⟨.dirichlet, linPressure low hi pdrop d a.centroid⟩)
                        sat := b.sat.set a.bid ⟨.dirichlet, s⟩ } with hb1
    have hs1 : Sized b1 n := ⟨hb.partner, by simp [hb1, hb.canon], by simp [hb1, hb.flow], by simp [hb1, hb.sat]⟩
    obtain ⟨r, hr, hrs, hrp, hrin, hrout⟩ := ih hnd.2 (fun f hf => hlt f (by simp [hf]))
      (fun f hf => hcp f (by simp [hf])) b1 hs1
    refine ⟨r, ?_, hrs, by rw [hrp], ?_, ?_⟩
    · rw [List.foldlM_cons, hstep]; exact hr
    · intro f hf
      rcases List.mem_cons.mp hf with rfl | hf
      · obtain ⟨h1, h2, h3⟩ := hrout f.bid hnd.1
        rw [h1, h2, h3]
        simp [hb1, hb.canon, hb.flow, hb.sat, ha]
      · exact hrin f hf
    · intro i hi'
      simp only [List.map_cons, List.mem_cons, not_or] at hi'
      obtain ⟨h1, h2, h3⟩ := hrout i hi'.2
      have hne : a.bid ≠ i := fun h => hi'.1 h.symm
      rw [h1, h2, h3]
      simp [hb1, hne]

end

end Verif.Boundary
