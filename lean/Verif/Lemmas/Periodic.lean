import Verif.Lemmas.Boundary
import Mathlib.Data.List.Range

set_option linter.unusedSectionVars false

namespace Verif.Boundary

variable {K : Type} [Field K] [LinearOrder K] [IsStrictOrderedRing K]

/-! ### The partner loop as a state machine on positions -/

/-- Face info `b` at position `i` when the partner (by position) is `p i`. -/
def dress (S : List (BFI K)) (p : Nat → Option Nat) (i : Nat) (b : BFI K) : BFI K :=
  match p i with
  | none => b
  | some j =>
    match S[j]? with
    | some c => { b with partnerFace := some c.faceIndex, partnerBid := c.bid }
    | none => b

/-- The list of infos described by a position assignment. -/
def dressAll (S : List (BFI K)) (p : Nat → Option Nat) : List (BFI K) := S.mapIdx (dress S p)

theorem dressAll_get (S : List (BFI K)) (p : Nat → Option Nat) (i : Nat) :
    (dressAll S p)[i]? = (S[i]?).map (dress S p i) := by simp [dressAll]

theorem dressAll_length (S : List (BFI K)) (p : Nat → Option Nat) : (dressAll S p).length = S.length := by
  simp [dressAll]

theorem dress_static (S : List (BFI K)) (p : Nat → Option Nat) (i : Nat) (b : BFI K) :
    (dress S p i b).faceIndex = b.faceIndex ∧ (dress S p i b).bid = b.bid ∧
    (dress S p i b).canonPos = b.canonPos ∧ (dress S p i b).area = b.area ∧
    (dress S p i b).centroid = b.centroid := by
  unfold dress
  split
  · simp
  · split <;> simp

theorem accepts_dress (S : List (BFI K)) (p : Nat → Option Nat) (i j : Nat) (a b : BFI K) :
    accepts (dress S p i a) (dress S p j b) ↔ accepts a b := by
  obtain ⟨_, _, h3, h4, h5⟩ := dress_static S p i a
  obtain ⟨_, _, g3, g4, g5⟩ := dress_static S p j b
  unfold accepts
  rw [h3, h4, h5, g3, g4, g5]

/-- Positions `i` and `j` hold faces that `match` accepts as partners. -/
def Acc (S : List (BFI K)) (i j : Nat) : Prop :=
  ∃ a b, S[i]? = some a ∧ S[j]? = some b ∧ accepts a b

instance (S : List (BFI K)) (i j : Nat) : Decidable (Acc S i j) :=
  match hi : S[i]?, hj : S[j]? with
  | some a, some b => if h : accepts a b then .isTrue ⟨a, b, hi, hj, h⟩
      else .isFalse (by rintro ⟨a', b', h1, h2, h3⟩; rw [hi] at h1; rw [hj] at h2; cases h1; cases h2; exact h h3)
  | none, _ => .isFalse (by rintro ⟨a', b', h1, _, _⟩; rw [hi] at h1; cases h1)
  | some _, none => .isFalse (by rintro ⟨a', b', _, h2, _⟩; rw [hj] at h2; cases h2)

theorem oppPos_oppPos (x : Nat) : oppPos (oppPos x) = x := by
  unfold oppPos; split <;> split <;> omega

theorem oppPos_ne (x : Nat) : oppPos x ≠ x := by
  unfold oppPos; split <;> omega

theorem accepts_symm {a b : BFI K} (h : accepts a b) : accepts b a := by
  obtain ⟨h1, h2, h3⟩ := h
  refine ⟨by rw [h1, oppPos_oppPos], by rwa [abs_sub_comm], ?_⟩
  have : ∀ d, (a.centroid d - b.centroid d) ^ 2 = (b.centroid d - a.centroid d) ^ 2 := fun d => by ring
  simpa only [this] using h3

theorem Acc.symm {S : List (BFI K)} {i j : Nat} (h : Acc S i j) : Acc S j i := by
  obtain ⟨a, b, h1, h2, h3⟩ := h
  exact ⟨b, a, h2, h1, accepts_symm h3⟩

theorem Acc.ne {S : List (BFI K)} {i j : Nat} (h : Acc S i j) : i ≠ j := by
  rintro rfl
  obtain ⟨a, b, h1, h2, h3⟩ := h
  rw [h1] at h2; cases h2
  exact oppPos_ne _ h3.1.symm

theorem Acc.lt {S : List (BFI K)} {i j : Nat} (h : Acc S i j) : i < S.length ∧ j < S.length := by
  obtain ⟨a, b, h1, h2, _⟩ := h
  exact ⟨(List.getElem?_eq_some_iff.mp h1).1, (List.getElem?_eq_some_iff.mp h2).1⟩

/-- The first accepted position of a search window. -/
def firstCand (S : List (BFI K)) (i lo up : Nat) : Option Nat :=
  (List.range' lo (up - lo)).find? fun j => decide (Acc S i j)

theorem firstCand_some {S : List (BFI K)} {i lo up j : Nat} (h : firstCand S i lo up = some j) : Acc S i j := by
  have := List.find?_some h
  simpa using this

theorem firstCand_none {S : List (BFI K)} {i lo up : Nat} (h : firstCand S i lo up = none) (j : Nat)
    (h1 : lo ≤ j) (h2 : j < up) : ¬ Acc S i j := by
  have := List.find?_eq_none.mp h j (by rw [List.mem_range'_1]; omega)
  simpa using this

/-- Make `i` and `j` mutual partners. -/
def upd (p : Nat → Option Nat) (i j : Nat) : Nat → Option Nat :=
  fun k => if k = j then some i else if k = i then some j else p k

theorem find_dress (S : List (BFI K)) (p : Nat → Option Nat) (i : Nat) (a : BFI K) (ha : S[i]? = some a)
    (l : List Nat) :
    l.find? (acceptsAt (dressAll S p) (dress S p i a)) = l.find? fun j => decide (Acc S i j) := by
  congr 1
  funext j
  unfold acceptsAt
  rw [dressAll_get]
  cases hj : S[j]? with
  | none =>
    have : ¬ Acc S i j := by rintro ⟨_, _, _, h, _⟩; rw [hj] at h; cases h
    simp [this]
  | some b =>
    simp only [Option.map_some, accepts_dress]
    congr 1
    apply propext
    constructor
    · intro h; exact ⟨a, b, ha, hj, h⟩
    · rintro ⟨a', b', h1, h2, h3⟩
      rw [ha] at h1; rw [hj] at h2; cases h1; cases h2; exact h3

theorem matchFace_dress (S : List (BFI K)) (p : Nat → Option Nat) (i lo up : Nat) (a : BFI K)
    (ha : S[i]? = some a) (hfresh : ∀ b ∈ S, b.partnerFace = none)
    (hp : ∀ k j, p k = some j → j < S.length) :
    matchFace (dressAll S p) i lo up =
      match firstCand S i lo up with
      | some j => some (dressAll S (upd p i j), true)
      | none => some (dressAll S p, (p i).isSome) := by
  unfold matchFace
  rw [dressAll_get, ha]
  simp only [Option.map_some]
  rw [find_dress S p i a ha]
  change (match firstCand S i lo up with | none => _ | some j => _) = _
  cases hf : firstCand S i lo up with
  | none =>
    simp only [Option.some.injEq, Prod.mk.injEq, true_and]
    unfold dress
    cases hpi : p i with
    | none => simp [hfresh a (List.mem_of_getElem? ha)]
    | some j =>
      have := hp i j hpi
      simp [List.getElem?_eq_getElem this]
  | some j =>
    have hacc := firstCand_some hf
    have hne := hacc.ne
    obtain ⟨a', b, h1, h2, h3⟩ := hacc
    simp only
    rw [dressAll_get, h2]
    simp only [Option.map_some, Option.some.injEq, Prod.mk.injEq, and_true]
    obtain ⟨e1, e2, e3, e4, e5⟩ := dress_static S p i a
    obtain ⟨f1, f2, f3, f4, f5⟩ := dress_static S p j b
    have hil : i < S.length := (List.getElem?_eq_some_iff.mp ha).1
    have hjl : j < S.length := (List.getElem?_eq_some_iff.mp h2).1
    apply List.ext_getElem?
    intro k
    rw [List.getElem?_set, List.getElem?_set, dressAll_get, dressAll_get]
    simp only [List.length_set, dressAll_length]
    by_cases hkj : j = k
    · subst hkj
      simp only [if_true, hjl, h2, Option.map_some]
      have hR : dress S (upd p i j) j b = { b with partnerFace := some a.faceIndex, partnerBid := a.bid } := by
        simp [dress, upd, ha]
      rw [hR]
      simp only [e1, e2, f1, f2, f3, f4, f5]
    · rw [if_neg hkj]
      by_cases hki : i = k
      · subst hki
        simp only [if_true, hil, ha, Option.map_some]
        have hR : dress S (upd p i j) i a = { a with partnerFace := some b.faceIndex, partnerBid := b.bid } := by
          simp [dress, upd, h2, hne]
        rw [hR]
        simp only [e1, e2, e3, e4, e5, f1, f2]
      · rw [if_neg hki]
        cases hk : S[k]? with
        | none => simp
        | some c =>
          simp only [Option.map_some]
          congr 1
          have h1 : ¬ k = j := fun h => hkj h.symm
          have h2 : ¬ k = i := fun h => hki h.symm
          simp [dress, upd, h1, h2]

/-- The partner loop on position assignments. -/
def astep (S : List (BFI K)) (per : Nat → Bool) (p : Nat → Option Nat) (i : Nat) : Nat → Option Nat :=
  if (p i).isSome then p
  else match S[i]? with
    | none => p
    | some a =>
      if per a.canonPos = false then p
      else match firstCand S i (i - 10) (min S.length (i + 10)) with
        | some j => upd p i j
        | none =>
          match firstCand S i 0 S.length with
          | some j => upd p i j
          | none => p

theorem upd_lt {S : List (BFI K)} {p : Nat → Option Nat} {i j : Nat} (hi : i < S.length) (hj : j < S.length)
    (hp : ∀ k j, p k = some j → j < S.length) : ∀ k m, upd p i j k = some m → m < S.length := by
  intro k m h
  unfold upd at h
  split at h
  · cases h; exact hi
  · split at h
    · cases h; exact hj
    · exact hp _ _ h

/-- What one iteration can do: nothing, or make `i` and an accepted `j` partners. -/
theorem astep_cases (S : List (BFI K)) (per : Nat → Bool) (p : Nat → Option Nat) (i : Nat) :
    astep S per p i = p ∨ (∃ j a, p i = none ∧ S[i]? = some a ∧ per a.canonPos = true ∧ Acc S i j ∧
      astep S per p i = upd p i j) := by
  unfold astep
  cases hpi : p i with
  | some x => left; simp
  | none =>
    simp only [Option.isSome_none, Bool.false_eq_true, if_false]
    cases ha : S[i]? with
    | none => left; simp
    | some a =>
      simp only
      cases hper : per a.canonPos with
      | false => left; simp
      | true =>
        simp only [Bool.true_eq_false, if_false]
        cases hf : firstCand S i (i - 10) (min S.length (i + 10)) with
        | some j => right; exact ⟨j, a, by simp, by simp, hper, firstCand_some hf, rfl⟩
        | none =>
          simp only
          cases hf2 : firstCand S i 0 S.length with
          | some j => right; exact ⟨j, a, by simp, by simp, hper, firstCand_some hf2, rfl⟩
          | none => left; rfl

theorem astep_lt {S : List (BFI K)} {per : Nat → Bool} {p : Nat → Option Nat} {i : Nat} (hi : i < S.length)
    (hp : ∀ k j, p k = some j → j < S.length) : ∀ k m, astep S per p i k = some m → m < S.length := by
  rcases astep_cases S per p i with e | ⟨j, a, _, _, _, h4, e⟩
  · rw [e]; exact hp
  · rw [e]; exact upd_lt hi h4.lt.2 hp

theorem partnerStep_dress (S : List (BFI K)) (per : Nat → Bool) (p : Nat → Option Nat) (i : Nat)
    (hi : i < S.length) (hfresh : ∀ b ∈ S, b.partnerFace = none) (hp : ∀ k j, p k = some j → j < S.length) :
    partnerStep per S.length (dressAll S p) i = some (dressAll S (astep S per p i)) := by
  have ha : S[i]? = some S[i] := List.getElem?_eq_getElem hi
  have hm := fun lo up => matchFace_dress S p i lo up S[i] ha hfresh hp
  unfold partnerStep
  rw [dressAll_get, ha]
  simp only [Option.map_some, Option.bind_eq_bind, Option.bind_some]
  have hpart : (dress S p i S[i]).partnerFace.isSome = (p i).isSome := by
    unfold dress
    cases hpi : p i with
    | none => simp [hfresh S[i] (List.getElem_mem hi)]
    | some j => simp [List.getElem?_eq_getElem (hp i j hpi)]
  have hcan := (dress_static S p i S[i]).2.2.1
  rw [hpart, hcan]
  unfold astep
  cases hpi : (p i).isSome with
  | true => simp
  | false =>
    rw [ha]
    cases hper : per S[i].canonPos with
    | false => simp [hper]
    | true =>
      simp only [Bool.false_eq_true, if_false, hper, Bool.not_true, hm]
      cases hf : firstCand S i (i - 10) (min S.length (i + 10)) with
      | some j => simp
      | none =>
        simp only [Option.bind_some, hpi, Bool.false_eq_true, if_false, hm]
        cases hf2 : firstCand S i 0 S.length with
        | some j => simp
        | none => simp

theorem partnerLoop_dress (S : List (BFI K)) (per : Nat → Bool) (hfresh : ∀ b ∈ S, b.partnerFace = none) :
    partnerLoop per S = some (dressAll S ((List.range S.length).foldl (astep S per) (fun _ => none))) := by
  have key : ∀ (l : List Nat), (∀ i ∈ l, i < S.length) → ∀ p : Nat → Option Nat,
      (∀ k j, p k = some j → j < S.length) →
      l.foldlM (partnerStep per S.length) (dressAll S p) = some (dressAll S (l.foldl (astep S per) p)) := by
    intro l
    induction l with
    | nil => intro _ p _; rfl
    | cons i l ih =>
      intro hl p hp
      have hi := hl i (by simp)
      rw [List.foldlM_cons, partnerStep_dress S per p i hi hfresh hp]
      exact ih (fun k hk => hl k (by simp [hk])) _ (astep_lt hi hp)
  have h0 : dressAll S (fun _ => none) = S := by
    apply List.ext_getElem?
    intro k
    rw [dressAll_get]
    cases S[k]? <;> simp [dress]
  have := key (List.range S.length) (fun i hi => by simpa using hi) (fun _ => none) (by simp)
  rw [h0] at this
  exact this

/-! ### Invariants -/

/-- Every assigned partner is geometrically accepted. -/
def Sound (S : List (BFI K)) (p : Nat → Option Nat) : Prop := ∀ i j, p i = some j → Acc S i j

theorem upd_sound {S : List (BFI K)} {p : Nat → Option Nat} {i j : Nat} (hs : Sound S p) (h : Acc S i j) :
    Sound S (upd p i j) := by
  intro a b hab
  unfold upd at hab
  split at hab
  · rename_i e; cases hab; subst e; exact h.symm
  · split at hab
    · rename_i e; cases hab; subst e; exact h
    · exact hs _ _ hab

theorem foldl_astep_inv {S : List (BFI K)} {per : Nat → Bool} (P : (Nat → Option Nat) → Prop)
    (hstep : ∀ p i j a, P p → p i = none → S[i]? = some a → per a.canonPos = true → Acc S i j → P (upd p i j))
    (l : List Nat) : ∀ p, P p → P (l.foldl (astep S per) p) := by
  induction l with
  | nil => intro p h; exact h
  | cons i l ih =>
    intro p h
    rw [List.foldl_cons]
    apply ih
    rcases astep_cases S per p i with e | ⟨j, a, h1, h2, h3, h4, e⟩
    · rw [e]; exact h
    · rw [e]; exact hstep p i j a h h1 h2 h3 h4

theorem loop_sound (S : List (BFI K)) (per : Nat → Bool) (l : List Nat) :
    Sound S (l.foldl (astep S per) (fun _ => none)) :=
  foldl_astep_inv (Sound S) (fun _ _ _ _ hs _ _ _ h => upd_sound hs h) l _ (by intro i j h; cases h)

/-- At most one accepted candidate per face. -/
def UniqueCand (S : List (BFI K)) : Prop := ∀ i j k, Acc S i j → Acc S i k → j = k

theorem loop_symm (S : List (BFI K)) (per : Nat → Bool) (hu : UniqueCand S) (l : List Nat) :
    ∀ i j, l.foldl (astep S per) (fun _ => none) i = some j → l.foldl (astep S per) (fun _ => none) j = some i := by
  have := foldl_astep_inv (S := S) (per := per)
    (fun p => Sound S p ∧ ∀ i j, p i = some j → p j = some i) (by
      rintro p i j a ⟨hs, hsym⟩ _ _ _ hacc
      refine ⟨upd_sound hs hacc, ?_⟩
      intro x y hxy
      have hne := hacc.ne
      unfold upd at hxy ⊢
      by_cases hxj : x = j
      · subst hxj
        simp only [if_true] at hxy
        cases hxy
        rw [if_neg hne, if_pos rfl]
      · rw [if_neg hxj] at hxy
        by_cases hxi : x = i
        · subst hxi
          simp only [if_true] at hxy
          cases hxy
          rw [if_pos rfl]
        · rw [if_neg hxi] at hxy
          have hxy' := hs x y hxy
          by_cases hyj : y = j
          · subst hyj
            exact absurd (hu y x i hxy'.symm hacc.symm) hxi
          · rw [if_neg hyj]
            by_cases hyi : y = i
            · subst hyi
              exact absurd (hu y x j hxy'.symm hacc) hxj
            · rw [if_neg hyi]
              exact hsym x y hxy) l (fun _ => none) ⟨(by intro i j h; cases h), (by intro i j h; cases h)⟩
  exact this.2

theorem loop_mono (S : List (BFI K)) (per : Nat → Bool) (k : Nat) (l : List Nat) :
    ∀ p : Nat → Option Nat, (p k).isSome → (l.foldl (astep S per) p k).isSome := by
  intro p h
  exact foldl_astep_inv (S := S) (per := per) (fun p => (p k).isSome = true) (by
    intro p i j a hp _ _ _ _
    unfold upd
    split
    · rfl
    · split
      · rfl
      · exact hp) l p h

theorem astep_complete {S : List (BFI K)} {per : Nat → Bool} {p : Nat → Option Nat} {i j : Nat} {a : BFI K}
    (ha : S[i]? = some a) (hper : per a.canonPos = true) (hacc : Acc S i j) : (astep S per p i i).isSome := by
  unfold astep
  cases hpi : p i with
  | some x => simp [hpi]
  | none =>
    simp only [Option.isSome_none, Bool.false_eq_true, if_false, ha, hper, Bool.true_eq_false]
    cases hf : firstCand S i (i - 10) (min S.length (i + 10)) with
    | some k =>
      have := (firstCand_some hf).ne
      simp [upd, this]
    | none =>
      simp only
      cases hf2 : firstCand S i 0 S.length with
      | some k =>
        have := (firstCand_some hf2).ne
        simp [upd, this]
      | none => exact absurd hacc (firstCand_none hf2 j (Nat.zero_le _) hacc.lt.2)

theorem loop_complete (S : List (BFI K)) (per : Nat → Bool) {i j : Nat} {a : BFI K}
    (ha : S[i]? = some a) (hper : per a.canonPos = true) (hacc : Acc S i j) (l : List Nat) (hi : i ∈ l) :
    ∀ p : Nat → Option Nat, (l.foldl (astep S per) p i).isSome := by
  induction l with
  | nil => simp at hi
  | cons k l ih =>
    intro p
    rw [List.foldl_cons]
    rcases List.mem_cons.mp hi with rfl | h
    · exact loop_mono S per i l _ (astep_complete ha hper hacc)
    · exact ih h _

/-- Faces on sides that are not periodic never get a partner (periodicity flags agree on opposite sides). -/
theorem loop_periodic_only (S : List (BFI K)) (per : Nat → Bool) (hpp : ∀ s, per (oppPos s) = per s)
    (l : List Nat) {i j : Nat} {a : BFI K} (ha : S[i]? = some a)
    (h : l.foldl (astep S per) (fun _ => none) i = some j) : per a.canonPos = true := by
  have := foldl_astep_inv (S := S) (per := per)
    (fun p => ∀ i a, S[i]? = some a → (p i).isSome → per a.canonPos = true) (by
      intro p i j b hp _ hb hper hacc x c hx hsome
      unfold upd at hsome
      split at hsome
      · rename_i e; subst e
        obtain ⟨a', b', h1, h2, h3⟩ := hacc
        rw [hb] at h1; rw [hx] at h2; cases h1; cases h2
        rw [h3.1, hpp]; exact hper
      · split at hsome
        · rename_i e; subst e; rw [hb] at hx; cases hx; exact hper
        · exact hp x c hx hsome) l (fun _ => none) (by intro i a _ h; cases h)
  exact this i a ha (by rw [h]; rfl)

/-- Under unique candidates the loop computes exactly the geometric partner relation on periodic sides. -/
theorem loop_iff (S : List (BFI K)) (per : Nat → Bool) (hu : UniqueCand S) (hpp : ∀ s, per (oppPos s) = per s)
    {i j : Nat} {a : BFI K} (ha : S[i]? = some a) :
    (List.range S.length).foldl (astep S per) (fun _ => none) i = some j ↔
      per a.canonPos = true ∧ Acc S i j := by
  constructor
  · intro h
    exact ⟨loop_periodic_only S per hpp _ ha h, loop_sound S per _ i j h⟩
  · rintro ⟨h1, h2⟩
    have := loop_complete S per ha h1 h2 (List.range S.length) (by simpa using h2.lt.1) (fun _ => none)
    obtain ⟨k, hk⟩ := Option.isSome_iff_exists.mp this
    have hk' := loop_sound S per _ i k hk
    rw [hk, hu i j k h2 hk']

end Verif.Boundary
