import Verif.Spec.RelPermFiles
import Mathlib.Data.Rat.Defs
import Mathlib.Algebra.Order.Ring.Rat
import Mathlib.Tactic.FinCases
import Mathlib.Tactic.Tauto
import Mathlib.Data.Fintype.Basic
import Mathlib.Data.Fintype.Fin

/-!
C125: the saturation functions that `upscale_relperm` reads.
-/

namespace Verif.RelPermOut

open Spec

variable {K : Type} [LinearOrder K]

theorem strict_iff (c : Curve K) : strict c = true ↔
    (∀ p ∈ c, ∀ q ∈ c, p.1 < q.1 → p.2 < q.2) ∨ (∀ p ∈ c, ∀ q ∈ c, p.1 < q.1 → q.2 < p.2) := by
  simp only [strict, Bool.or_eq_true, decide_eq_true_iff]

/-- What one file contributes to a list. -/
theorem extract_view {X : Type} (readable : Name → Bool) (step : Name → Helper K → Res (Helper K)) (n : Nat) (files : List Name) (view : Helper K → List X)
    (R : Name → X → Prop) (hv : ∀ f h h', step f h = .ok h' → ∃ x, view h' = view h ++ [x] ∧ R f x) :
    ∀ (k i : Nat) (h h' : Helper K), extract readable step n files i k h = .ok h' → ∃ L : List X, view h' = view h ++ L ∧ L.length = k ∧
      ∀ (t : Nat) (x : X), L[t]? = some x → ∃ f, (if files.length = n then files[i + t]? else files[0]?) = some f ∧ readable f = true ∧ R f x := by
  intro k
  induction k with
  | zero =>
    intro i h h' he
    have : h = h' := by injection he
    subst this
    exact ⟨[], by simp, rfl, fun t x hx => by simp at hx⟩
  | succ k ih =>
    intro i h h' he
    unfold extract at he
    rcases hf : (if files.length = n then files[i]? else files[0]?) with _ | f
    · simp [hf] at he
    · simp only [hf] at he
      cases hr : readable f with
      | false => simp [hr] at he
      | true =>
        simp only [hr, if_true] at he
        rcases hs : step f h with h1 | _ | _
        · simp only [hs] at he
          obtain ⟨x, hx, hR⟩ := hv f h h1 hs
          obtain ⟨L, hL, hl, hall⟩ := ih (i + 1) h1 h' he
          refine ⟨x :: L, by rw [hL, hx]; simp, by simp [hl], fun t y hy => ?_⟩
          cases t with
          | zero =>
            rw [List.getElem?_cons_zero] at hy; cases hy
            exact ⟨f, hf, hr, hR⟩
          | succ t =>
            rw [List.getElem?_cons_succ] at hy
            obtain ⟨g, hg, h2⟩ := hall t y hy
            exact ⟨g, by rw [show i + (t + 1) = i + 1 + t by omega]; exact hg, h2⟩
        · simp [hs] at he
        · simp [hs] at he

/-- A list that no file contributes to. -/
theorem extract_same {X : Type} (readable : Name → Bool) (step : Name → Helper K → Res (Helper K)) (n : Nat) (files : List Name) (view : Helper K → X)
    (hv : ∀ f h h', step f h = .ok h' → view h' = view h) :
    ∀ (k i : Nat) (h h' : Helper K), extract readable step n files i k h = .ok h' → view h' = view h := by
  intro k
  induction k with
  | zero =>
    intro i h h' he
    have : h = h' := by injection he
    rw [this]
  | succ k ih =>
    intro i h h' he
    unfold extract at he
    rcases hf : (if files.length = n then files[i]? else files[0]?) with _ | f
    · simp [hf] at he
    · simp only [hf] at he
      cases hr : readable f with
      | false => simp [hr] at he
      | true =>
        simp only [hr, if_true] at he
        rcases hs : step f h with h1 | _ | _
        · simp only [hs] at he
          rw [ih (i + 1) h1 h' he, hv f h h1 hs]
        · simp [hs] at he
        · simp [hs] at he

/-- One read of relative permeabilities. -/
theorem addKr_ok {load : Name → Int → Int → Option (Curve K)} {file : Name} {x f : Int} {d : Fin 3} {ph : Fin 2} {h h' : Helper K}
    (hk : addKr load file x f d ph h = .ok h') : ∃ c, load file x f = some c ∧ h'.invJ = h.invJ ∧ h'.swPc = h.swPc ∧ h'.names = h.names ∧
      ∀ d' ph', h'.kr d' ph' = if d' = d ∧ ph' = ph then h.kr d' ph' ++ [c] else h.kr d' ph' := by
  unfold addKr at hk
  rcases hl : load file x f with _ | c
  · simp [hl] at hk
  · simp only [hl] at hk
    injection hk with hk
    subst hk
    exact ⟨c, rfl, rfl, rfl, rfl, fun _ _ => rfl⟩

/-- A sequence of reads. -/
theorem addAll_cons {load : Name → Int → Int → Option (Curve K)} {file : Name} {x f : Int} {d : Fin 3} {ph : Fin 2} {l : List (Int × Int × Fin 3 × Fin 2)}
    {h h' : Helper K} (hk : addAll load file ((x, f, d, ph) :: l) h = .ok h') : ∃ h1, addKr load file x f d ph h = .ok h1 ∧ addAll load file l h1 = .ok h' := by
  unfold addAll at hk
  rcases ha : addKr load file x f d ph h with h1 | _ | _
  · simp only [ha] at hk
    exact ⟨h1, rfl, hk⟩
  · simp [ha] at hk
  · simp [ha] at hk

/-- One file of isotropic input, both phases. -/
theorem iso_both {load : Name → Int → Int → Option (Curve K)} {j k : Int} {f : Name} {h h' : Helper K} (hk : isotropic load true j k f h = .ok h') :
    ∃ c a b, load f 1 j = some c ∧ Invertible c ∧ load f 1 2 = some a ∧ load f 1 3 = some b ∧ h'.invJ = h.invJ ++ [c.map Prod.swap] ∧ h'.swPc = h.swPc ∧
      h'.names = h.names ++ [f] ∧ h'.kr 0 0 = h.kr 0 0 ++ [a] ∧ h'.kr 0 1 = h.kr 0 1 ++ [b] := by
  unfold isotropic at hk
  rcases hl : load f 1 j with _ | c
  · simp [hl] at hk
  · simp only [hl] at hk
    by_cases hs : strict c = true
    · rw [if_pos hs] at hk
      simp only [if_true] at hk
      obtain ⟨h1, e1, hk⟩ := addAll_cons hk
      obtain ⟨h2, e2, hk⟩ := addAll_cons hk
      have : h2 = h' := by injection hk
      subst this
      obtain ⟨a, la, a1, a2, a3, a4⟩ := addKr_ok e1
      obtain ⟨b, lb, b1, b2, b3, b4⟩ := addKr_ok e2
      refine ⟨c, a, b, rfl, (strict_iff c).mp hs, la, lb, by rw [b1, a1]; rfl, by rw [b2, a2], by rw [b3, a3], ?_, ?_⟩
      · rw [b4, a4]; simp
      · rw [b4, a4]; simp
    · rw [if_neg hs] at hk; cases hk

/-- One file of isotropic input, one phase. -/
theorem iso_one {load : Name → Int → Int → Option (Curve K)} {j k : Int} {f : Name} {h h' : Helper K} (hk : isotropic load false j k f h = .ok h') :
    ∃ c a, load f 1 j = some c ∧ Invertible c ∧ load f 1 k = some a ∧ h'.invJ = h.invJ ++ [c.map Prod.swap] ∧ h'.swPc = h.swPc ∧
      h'.names = h.names ++ [f] ∧ h'.kr 0 0 = h.kr 0 0 ++ [a] ∧ h'.kr 0 1 = h.kr 0 1 := by
  unfold isotropic at hk
  rcases hl : load f 1 j with _ | c
  · simp [hl] at hk
  · simp only [hl] at hk
    by_cases hs : strict c = true
    · rw [if_pos hs, if_neg Bool.false_ne_true] at hk
      obtain ⟨h1, e1, hk⟩ := addAll_cons hk
      have : h1 = h' := by injection hk
      subst this
      obtain ⟨a, la, a1, a2, a3, a4⟩ := addKr_ok e1
      refine ⟨c, a, rfl, (strict_iff c).mp hs, la, by rw [a1]; rfl, by rw [a2], by rw [a3], ?_, ?_⟩
      · rw [a4]; simp
      · rw [a4]; simp
    · rw [if_neg hs] at hk; cases hk

/-- One file of anisotropic input. -/
theorem aniso_ok {load : Name → Int → Int → Option (Curve K)} {both : Bool} {f : Name} {h h' : Helper K} (hk : anisotropic load both f h = .ok h') :
    ∃ c a0 a1 a2, load f 2 1 = some c ∧ Invertible c ∧ load f 2 3 = some a0 ∧ load f 2 4 = some a1 ∧ load f 2 5 = some a2 ∧
      h'.swPc = h.swPc ++ [c.map Prod.swap] ∧ h'.invJ = h.invJ ∧ h'.names = h.names ++ [f] ∧
      h'.kr 0 0 = h.kr 0 0 ++ [a0] ∧ h'.kr 1 0 = h.kr 1 0 ++ [a1] ∧ h'.kr 2 0 = h.kr 2 0 ++ [a2] ∧
      (both = true → ∃ b0 b1 b2, load f 2 6 = some b0 ∧ load f 2 7 = some b1 ∧ load f 2 8 = some b2 ∧
        h'.kr 0 1 = h.kr 0 1 ++ [b0] ∧ h'.kr 1 1 = h.kr 1 1 ++ [b1] ∧ h'.kr 2 1 = h.kr 2 1 ++ [b2]) ∧
      (both = false → ∀ d, h'.kr d 1 = h.kr d 1) := by
  unfold anisotropic at hk
  rcases hl : load f 2 1 with _ | c
  · simp [hl] at hk
  · simp only [hl] at hk
    by_cases hs : strict c = true
    · rw [if_pos hs] at hk
      obtain ⟨h1, e1, hk⟩ := addAll_cons hk
      obtain ⟨h2, e2, hk⟩ := addAll_cons hk
      obtain ⟨h3, e3, hk⟩ := addAll_cons hk
      obtain ⟨a, la, a1, a2, a3, a4⟩ := addKr_ok e1
      obtain ⟨b, lb, b1, b2, b3, b4⟩ := addKr_ok e2
      obtain ⟨e, le, c1, c2, c3, c4⟩ := addKr_ok e3
      cases both with
      | false =>
        have : h3 = h' := by injection hk
        subst this
        refine ⟨c, a, b, e, rfl, (strict_iff c).mp hs, la, lb, le, by rw [c2, b2, a2]; rfl, by rw [c1, b1, a1], by rw [c3, b3, a3], ?_, ?_, ?_, (by intro h; cases h), ?_⟩
        · rw [c4, b4, a4]; simp
        · rw [c4, b4, a4]; simp
        · rw [c4, b4, a4]; simp
        · intro _ d; rw [c4, b4, a4]; simp
      | true =>
        obtain ⟨h4, e4, hk⟩ := addAll_cons hk
        obtain ⟨h5, e5, hk⟩ := addAll_cons hk
        obtain ⟨h6, e6, hk⟩ := addAll_cons hk
        have : h6 = h' := by injection hk
        subst this
        obtain ⟨p, lp, p1, p2, p3, p4⟩ := addKr_ok e4
        obtain ⟨q, lq, q1, q2, q3, q4⟩ := addKr_ok e5
        obtain ⟨r, lr, r1, r2, r3, r4⟩ := addKr_ok e6
        refine ⟨c, a, b, e, rfl, (strict_iff c).mp hs, la, lb, le, by rw [r2, q2, p2, c2, b2, a2]; rfl, by rw [r1, q1, p1, c1, b1, a1],
          by rw [r3, q3, p3, c3, b3, a3], ?_, ?_, ?_, fun _ => ⟨p, q, r, lp, lq, lr, ?_, ?_, ?_⟩, (by intro h; cases h)⟩
        all_goals rw [r4, q4, p4, c4, b4, a4]; simp
    · rw [if_neg hs] at hk; cases hk

theorem fileOf_of {n : Nat} {files : List Name} {t : Nat} {f : Name} (hlen : files.length = n ∨ files.length = 1)
    (h : (if files.length = n then files[0 + t]? else files[0]?) = some f) : FileOf n files t f := by
  by_cases hn : files.length = n
  · rw [if_pos hn, Nat.zero_add] at h
    exact Or.inl ⟨hn, h⟩
  · rw [if_neg hn] at h
    obtain ⟨g, rfl⟩ := List.length_eq_one_iff.mp (hlen.resolve_left hn)
    simp only [List.getElem?_cons_zero, Option.some.injEq] at h
    subst h
    exact Or.inr rfl

theorem functions_ok {load : Name → Int → Int → Option (Curve K)} {readable : Name → Bool} {aniso both : Bool} {j k : Int} {n : Nat} {files : List Name} {h : Helper K}
    (hf : functions load readable aniso both j k n files = .ok h) : (files.length = n ∨ files.length = 1) ∧
      extract readable (if aniso then anisotropic load both else isotropic load both j k) n files 0 n Helper.empty = .ok h := by
  unfold functions at hf
  by_cases hl : files.length = n ∨ files.length = 1
  · rw [if_pos hl] at hf; exact ⟨hl, hf⟩
  · rw [if_neg hl] at hf; cases hf

/-- Curves of one list. -/
theorem view_columns {load : Name → Int → Int → Option (Curve K)} {readable : Name → Bool} {step : Name → Helper K → Res (Helper K)} {n : Nat} {files : List Name}
    {h : Helper K} (hlen : files.length = n ∨ files.length = 1) (he : extract readable step n files 0 n Helper.empty = .ok h) (view : Helper K → List (Curve K))
    (h0 : view Helper.empty = []) (x y : Int) (hv : ∀ f h h', step f h = .ok h' → ∃ c, view h' = view h ++ [c] ∧ load f x y = some c) :
    Columns load n files x y (view h) := by
  obtain ⟨L, h1, h2, h3⟩ := extract_view readable step n files view (fun f c => load f x y = some c) hv n 0 _ _ he
  rw [h0, List.nil_append] at h1
  rw [h1]
  refine ⟨h2, fun i c hc => ?_⟩
  obtain ⟨f, hf, -, hl⟩ := h3 i c hc
  exact ⟨f, fileOf_of hlen hf, hl⟩

/-- Inverses of one list. -/
theorem view_inverses {load : Name → Int → Int → Option (Curve K)} {readable : Name → Bool} {step : Name → Helper K → Res (Helper K)} {n : Nat} {files : List Name}
    {h : Helper K} (hlen : files.length = n ∨ files.length = 1) (he : extract readable step n files 0 n Helper.empty = .ok h) (view : Helper K → List (Curve K))
    (h0 : view Helper.empty = []) (x y : Int)
    (hv : ∀ f h h', step f h = .ok h' → ∃ c, view h' = view h ++ [c] ∧ ∃ g, load f x y = some g ∧ Invertible g ∧ c = g.map Prod.swap) :
    Inverses load n files x y (view h) := by
  obtain ⟨L, h1, h2, h3⟩ := extract_view readable step n files view (fun f c => ∃ g, load f x y = some g ∧ Invertible g ∧ c = g.map Prod.swap) hv n 0 _ _ he
  rw [h0, List.nil_append] at h1
  rw [h1]
  refine ⟨h2, fun i c hc => ?_⟩
  obtain ⟨f, hf, -, g, hl⟩ := h3 i c hc
  exact ⟨f, g, fileOf_of hlen hf, hl⟩

/-- Names and readability. -/
theorem view_names {readable : Name → Bool} {step : Name → Helper K → Res (Helper K)} {n : Nat} {files : List Name}
    {h : Helper K} (hlen : files.length = n ∨ files.length = 1) (he : extract readable step n files 0 n Helper.empty = .ok h)
    (hv : ∀ f (h h' : Helper K), step f h = .ok h' → h'.names = h.names ++ [f]) :
    h.names.length = n ∧ ∀ (i : Nat) (f : Name), h.names[i]? = some f → FileOf n files i f ∧ readable f = true := by
  obtain ⟨L, h1, h2, h3⟩ := extract_view readable step n files (·.names) (fun f c => c = f) (fun f h h' hs => ⟨f, hv f h h' hs, rfl⟩) n 0 _ _ he
  have h1' : h.names = L := by rw [h1]; rfl
  rw [h1']
  refine ⟨h2, fun i c hc => ?_⟩
  obtain ⟨f, hf, hr, rfl⟩ := h3 i c hc
  exact ⟨fileOf_of hlen hf, hr⟩

/-- C125. Isotropic input, both phases: for each rock type the J-function comes inverted from column `jFunctionCurve` of its file against column 1, the
relative permeabilities of the phases from columns 2 and 3; no capillary pressures. -/
theorem C125_isotropic_both (load : Name → Int → Int → Option (Curve K)) (readable : Name → Bool) (j k : Int) (n : Nat) (files : List Name) (h : Helper K)
    (hf : functions load readable false true j k n files = .ok h) :
    Inverses load n files 1 j h.invJ ∧ Columns load n files 1 2 (h.kr 0 0) ∧ Columns load n files 1 3 (h.kr 0 1) ∧ h.swPc = [] ∧
    h.names.length = n ∧ ∀ (i : Nat) (f : Name), h.names[i]? = some f → FileOf n files i f ∧ readable f = true := by
  obtain ⟨hlen, he⟩ := functions_ok hf
  rw [if_neg Bool.false_ne_true] at he
  refine ⟨view_inverses hlen he (·.invJ) rfl 1 j ?_, view_columns hlen he (·.kr 0 0) rfl 1 2 ?_, view_columns hlen he (·.kr 0 1) rfl 1 3 ?_, ?_, view_names hlen he ?_⟩
  · intro f h h' hs
    obtain ⟨c, a, b, l1, l2, l3, l4, l5, l6, l7, l8, l9⟩ := iso_both hs
    exact ⟨_, l5, c, l1, l2, rfl⟩
  · intro f h h' hs
    obtain ⟨c, a, b, l1, l2, l3, l4, l5, l6, l7, l8, l9⟩ := iso_both hs
    exact ⟨_, l8, l3⟩
  · intro f h h' hs
    obtain ⟨c, a, b, l1, l2, l3, l4, l5, l6, l7, l8, l9⟩ := iso_both hs
    exact ⟨_, l9, l4⟩
  · rw [extract_same readable _ n files (·.swPc) (fun f h h' hs => ?_) n 0 _ _ he]; rfl
    obtain ⟨c, a, b, l1, l2, l3, l4, l5, l6, l7, l8, l9⟩ := iso_both hs
    exact l6
  · intro f h h' hs
    obtain ⟨c, a, b, l1, l2, l3, l4, l5, l6, l7, l8, l9⟩ := iso_both hs
    exact l7

/-- C125. Isotropic input, one phase: the relative permeabilities come from column `relPermCurve`. -/
theorem C125_isotropic_one (load : Name → Int → Int → Option (Curve K)) (readable : Name → Bool) (j k : Int) (n : Nat) (files : List Name) (h : Helper K)
    (hf : functions load readable false false j k n files = .ok h) :
    Inverses load n files 1 j h.invJ ∧ Columns load n files 1 k (h.kr 0 0) ∧ h.kr 0 1 = [] ∧ h.swPc = [] ∧
    h.names.length = n ∧ ∀ (i : Nat) (f : Name), h.names[i]? = some f → FileOf n files i f ∧ readable f = true := by
  obtain ⟨hlen, he⟩ := functions_ok hf
  rw [if_neg Bool.false_ne_true] at he
  refine ⟨view_inverses hlen he (·.invJ) rfl 1 j ?_, view_columns hlen he (·.kr 0 0) rfl 1 k ?_, ?_, ?_, view_names hlen he ?_⟩
  · intro f h h' hs
    obtain ⟨c, a, l1, l2, l3, l4, l5, l6, l7, l8⟩ := iso_one hs
    exact ⟨_, l4, c, l1, l2, rfl⟩
  · intro f h h' hs
    obtain ⟨c, a, l1, l2, l3, l4, l5, l6, l7, l8⟩ := iso_one hs
    exact ⟨_, l7, l3⟩
  · rw [extract_same readable _ n files (·.kr 0 1) (fun f h h' hs => ?_) n 0 _ _ he]; rfl
    obtain ⟨c, a, l1, l2, l3, l4, l5, l6, l7, l8⟩ := iso_one hs
    exact l8
  · rw [extract_same readable _ n files (·.swPc) (fun f h h' hs => ?_) n 0 _ _ he]; rfl
    obtain ⟨c, a, l1, l2, l3, l4, l5, l6, l7, l8⟩ := iso_one hs
    exact l5
  · intro f h h' hs
    obtain ⟨c, a, l1, l2, l3, l4, l5, l6, l7, l8⟩ := iso_one hs
    exact l6

/-- C125. Anisotropic input: saturation as function of the capillary pressure from columns 2 and 1, relative permeabilities of the first phase in x, y, z from
columns 3, 4, 5, of the second phase from columns 6, 7, 8 if both are upscaled. -/
theorem C125_anisotropic (load : Name → Int → Int → Option (Curve K)) (readable : Name → Bool) (both : Bool) (j k : Int) (n : Nat) (files : List Name) (h : Helper K)
    (hf : functions load readable true both j k n files = .ok h) :
    Inverses load n files 2 1 h.swPc ∧ (∀ d : Fin 3, Columns load n files 2 (3 + (d : Int)) (h.kr d 0)) ∧
    (both = true → ∀ d : Fin 3, Columns load n files 2 (6 + (d : Int)) (h.kr d 1)) ∧ (both = false → ∀ d : Fin 3, h.kr d 1 = []) ∧ h.invJ = [] ∧
    h.names.length = n ∧ ∀ (i : Nat) (f : Name), h.names[i]? = some f → FileOf n files i f ∧ readable f = true := by
  obtain ⟨hlen, he⟩ := functions_ok hf
  rw [if_pos rfl] at he
  refine ⟨view_inverses hlen he (·.swPc) rfl 2 1 ?_, fun d => view_columns hlen he (·.kr d 0) rfl 2 _ ?_, fun hb d => view_columns hlen he (·.kr d 1) rfl 2 _ ?_,
    fun hb d => ?_, ?_, view_names hlen he ?_⟩
  · intro f h h' hs
    obtain ⟨c, a0, a1, a2, l1, l2, l3, l4, l5, l6, -⟩ := aniso_ok hs
    exact ⟨_, l6, c, l1, l2, rfl⟩
  · intro f h h' hs
    obtain ⟨c, a0, a1, a2, l1, l2, l3, l4, l5, l6, l7, l8, l9, l10, l11, -⟩ := aniso_ok hs
    fin_cases d
    · exact ⟨_, l9, l3⟩
    · exact ⟨_, l10, l4⟩
    · exact ⟨_, l11, l5⟩
  · intro f h h' hs
    obtain ⟨c, a0, a1, a2, l1, l2, l3, l4, l5, l6, l7, l8, l9, l10, l11, l12, -⟩ := aniso_ok hs
    obtain ⟨b0, b1, b2, m1, m2, m3, m4, m5, m6⟩ := l12 hb
    fin_cases d
    · exact ⟨_, m4, m1⟩
    · exact ⟨_, m5, m2⟩
    · exact ⟨_, m6, m3⟩
  · rw [extract_same readable _ n files (·.kr d 1) (fun f h h' hs => ?_) n 0 _ _ he]; rfl
    obtain ⟨c, a0, a1, a2, l1, l2, l3, l4, l5, l6, l7, l8, l9, l10, l11, l12, l13⟩ := aniso_ok hs
    exact l13 hb d
  · rw [extract_same readable _ n files (·.invJ) (fun f h h' hs => ?_) n 0 _ _ he]; rfl
    obtain ⟨c, a0, a1, a2, l1, l2, l3, l4, l5, l6, l7, -⟩ := aniso_ok hs
    exact l7
  · intro f h h' hs
    obtain ⟨c, a0, a1, a2, l1, l2, l3, l4, l5, l6, l7, l8, -⟩ := aniso_ok hs
    exact l8

theorem addAll_total (load : Name → Int → Int → Option (Curve K)) (file : Name) (l : List (Int × Int × Fin 3 × Fin 2))
    (hl : ∀ r ∈ l, (load file r.1 r.2.1).isSome = true) : ∀ h : Helper K, ∃ h', addAll load file l h = .ok h' := by
  induction l with
  | nil => intro h; exact ⟨h, rfl⟩
  | cons r l ih =>
    intro h
    obtain ⟨x, f, d, ph⟩ := r
    obtain ⟨c, hc⟩ := Option.isSome_iff_exists.mp (hl (x, f, d, ph) (by simp))
    unfold addAll addKr
    replace hc : load file x f = some c := hc
    simp only [hc]
    exact ih (fun r hr => hl r (by simp [hr])) _

theorem extract_total (readable : Name → Bool) (step : Name → Helper K → Res (Helper K)) (n : Nat) (files : List Name)
    (hf : ∀ f ∈ files, readable f = true ∧ ∀ h, ∃ h', step f h = .ok h') (hlen : files.length = n ∨ files.length = 1) :
    ∀ (k i : Nat) (h : Helper K), i + k ≤ n → ∃ h', extract readable step n files i k h = .ok h' := by
  intro k
  induction k with
  | zero => intro i h _; exact ⟨h, rfl⟩
  | succ k ih =>
    intro i h hi
    obtain ⟨f, hfile, hmem⟩ : ∃ f, (if files.length = n then files[i]? else files[0]?) = some f ∧ f ∈ files := by
      by_cases hn : files.length = n
      · rw [if_pos hn]
        exact ⟨files[i]'(by omega), List.getElem?_eq_getElem (by omega), List.getElem_mem _⟩
      · rw [if_neg hn]
        have h1 := hlen.resolve_left hn
        exact ⟨files[0]'(by omega), List.getElem?_eq_getElem (by omega), List.getElem_mem _⟩
    obtain ⟨hr, hs⟩ := hf f hmem
    obtain ⟨h1, hs⟩ := hs h
    unfold extract
    simp only [hfile, hr, if_true, hs]
    exact ih (i + 1) h1 (by omega)

/-- C125. Input is accepted if there is one file for each type or one for all, every file is readable, its columns can be read and its curve of capillary
pressure can be inverted. -/
theorem C125_accepted (load : Name → Int → Int → Option (Curve K)) (readable : Name → Bool) (aniso both : Bool) (j k : Int) (n : Nat) (files : List Name)
    (hlen : files.length = n ∨ files.length = 1)
    (hf : ∀ f ∈ files, readable f = true ∧ (∃ c, load f (if aniso then 2 else 1) (if aniso then 1 else j) = some c ∧ Invertible c) ∧
      (aniso = false → both = false → (load f 1 k).isSome) ∧ (aniso = false → both = true → (load f 1 2).isSome ∧ (load f 1 3).isSome) ∧
      (aniso = true → (load f 2 3).isSome ∧ (load f 2 4).isSome ∧ (load f 2 5).isSome) ∧
      (aniso = true → both = true → (load f 2 6).isSome ∧ (load f 2 7).isSome ∧ (load f 2 8).isSome)) :
    ∃ h, functions load readable aniso both j k n files = .ok h := by
  unfold functions
  rw [if_pos hlen]
  refine extract_total readable _ n files (fun f hm => ?_) hlen n 0 _ (by omega)
  obtain ⟨hr, ⟨c, hc, hi⟩, k1, k2, k3, k4⟩ := hf f hm
  refine ⟨hr, fun h => ?_⟩
  cases aniso with
  | false =>
    simp only [Bool.false_eq_true, if_false] at hc ⊢
    unfold isotropic
    simp only [hc, if_pos ((strict_iff c).mpr hi)]
    refine addAll_total load f _ (fun r hr => ?_) _
    cases both with
    | false =>
      simp only [Bool.false_eq_true, if_false, List.mem_singleton] at hr
      subst hr
      exact k1 rfl rfl
    | true =>
      simp only [if_true, List.mem_cons, List.not_mem_nil, or_false] at hr
      rcases hr with rfl | rfl
      · exact (k2 rfl rfl).1
      · exact (k2 rfl rfl).2
  | true =>
    simp only [if_true] at hc ⊢
    unfold anisotropic
    simp only [hc, if_pos ((strict_iff c).mpr hi)]
    refine addAll_total load f _ (fun r hr => ?_) _
    obtain ⟨a, b, c'⟩ := k3 rfl
    cases both with
    | false =>
      simp only [Bool.false_eq_true, if_false, List.append_nil, List.mem_cons, List.not_mem_nil, or_false] at hr
      rcases hr with rfl | rfl | rfl
      · exact a
      · exact b
      · exact c'
    | true =>
      obtain ⟨p, q, r'⟩ := k4 rfl rfl
      simp only [if_true, List.cons_append, List.nil_append, List.mem_cons, List.not_mem_nil, or_false] at hr
      rcases hr with rfl | rfl | rfl | rfl | rfl | rfl
      · exact a
      · exact b
      · exact c'
      · exact p
      · exact q
      · exact r'

/-- C125. A wrong number of files is refused with a message. -/
theorem C125_count (load : Name → Int → Int → Option (Curve K)) (readable : Name → Bool) (aniso both : Bool) (j k : Int) (n : Nat) (files : List Name)
    (h1 : files.length ≠ n) (h2 : files.length ≠ 1) : functions load readable aniso both j k n files = .refused := by
  unfold functions
  rw [if_neg (by tauto)]

/-- A file with four columns, the J-function in column 4 falling; there is no column 9. -/
def someLoad (_ : Name) (x f : Int) : Option (Curve ℚ) :=
  if x = 1 ∧ f = 2 then some [(1 / 10, 0), (9 / 10, 1)]
  else if x = 1 ∧ f = 3 then some [(1 / 10, 1), (9 / 10, 0)]
  else if x = 1 ∧ f = 4 then some [(1 / 10, 5), (9 / 10, 1 / 2)]
  else none

/-- C125, violated: a wrong column for the relative permeability ends the program by `std::terminate` instead of a message, in contrast to a wrong column
for the J-function. -/
theorem C125_violated_message : (match functions someLoad (fun _ => true) false false 4 9 1 [['r']] with | .aborted => true | _ => false) = true ∧
    (match functions someLoad (fun _ => true) false false 9 2 1 [['r']] with | .refused => true | _ => false) = true := by
  constructor <;> decide +kernel

/-- C125. If both phases are upscaled, the option `relPermCurve` has no effect, as documented. -/
theorem C125_option (load : Name → Int → Int → Option (Curve K)) (readable : Name → Bool) (j k k' : Int) (n : Nat) (files : List Name) :
    functions load readable false true j k n files = functions load readable false true j k' n files := rfl

/-- The hypotheses are met: two rock types with one file, and with a file each. -/
example : (match functions someLoad (fun _ => true) false true 4 2 2 [['r']] with | .ok h => decide (h.invJ.length = 2) | _ => false) = true ∧
    (match functions someLoad (fun _ => true) false true 4 2 2 [['r'], ['s']] with | .ok h => decide (h.names = [['r'], ['s']]) | _ => false) = true := by
  constructor <;> decide +kernel

end Verif.RelPermOut
