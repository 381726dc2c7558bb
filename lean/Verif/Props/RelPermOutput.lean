import Verif.Spec.RelPermOutput
import Verif.Lemmas.Pattern
import Verif.Props.RelPerm
import Mathlib.Data.Rat.Defs
import Mathlib.Algebra.Field.Rat
import Mathlib.Algebra.Order.Ring.Rat
import Mathlib.Tactic.Linarith
import Mathlib.Tactic.FieldSimp
import Mathlib.Tactic.Ring
import Mathlib.Tactic.IntervalCases

/-!
C126: the results that `upscale_relperm` writes.
-/

namespace Verif.RelPermOut

open Spec

variable {K : Type} [Field K] [LinearOrder K]

theorem getD_of (l : List K) (i : Nat) (h : i < l.length) : l[i]? = some (l.getD i 0) := by
  rw [List.getD_eq_getElem?_getD, List.getElem?_eq_getElem h, Option.getD_some]

/-- A row of the table of complete data. -/
theorem row_eq (both : Bool) (d : Data K) (hc : Complete both d) (i : Nat) (hi : i < d.S.length) :
    row both d i = some (d.P.getD i 0 :: d.S.getD i 0 :: (d.kr1.map (·.getD i 0) ++ if both then d.kr2.map (·.getD i 0) else [])) := by
  unfold row
  rw [getD_of d.P i (by rw [hc.pressures]; exact hi), getD_of d.S i hi,
    Pattern.mapM_total d.kr1 (fun k => k[i]?) (·.getD i 0) (fun k hk => getD_of k i (by rw [hc.first k hk]; exact hi))]
  cases both with
  | false => simp
  | true =>
    rw [if_pos rfl, Pattern.mapM_total d.kr2 (fun k => k[i]?) (·.getD i 0) (fun k hk => getD_of k i (by rw [(hc.second rfl).1 k hk]; exact hi))]
    simp

/-- The table of complete data. -/
theorem table_eq (both : Bool) (d : Data K) (hc : Complete both d) :
    table both d = some ((List.range d.S.length).map fun (i : Nat) =>
      d.P.getD i 0 :: d.S.getD i 0 :: (d.kr1.map (·.getD i 0) ++ if both then d.kr2.map (·.getD i 0) else [])) :=
  Pattern.mapM_total _ _ _ (fun i hi => row_eq both d hc i (List.mem_range.mp hi))

/-- A row of an Eclipse file. -/
theorem eclRow_eq (d : Data K) (hc : Complete true d) (c i : Nat) (hc3 : c < 3) (hi : i < d.S.length) :
    eclRow d c i = some [d.S.getD i 0, (d.kr1.getD c []).getD i 0, (d.kr2.getD c []).getD i 0, d.P.getD i 0 / 100000] := by
  have h1 : c < d.kr1.length := lt_of_lt_of_le hc3 hc.three
  have h2 : c < d.kr2.length := by rw [(hc.second rfl).2]; exact h1
  have e1 : d.kr1[c]? = some (d.kr1.getD c []) := by rw [List.getD_eq_getElem?_getD, List.getElem?_eq_getElem h1, Option.getD_some]
  have e2 : d.kr2[c]? = some (d.kr2.getD c []) := by rw [List.getD_eq_getElem?_getD, List.getElem?_eq_getElem h2, Option.getD_some]
  have m1 : d.kr1.getD c [] ∈ d.kr1 := List.mem_of_getElem? e1
  have m2 : d.kr2.getD c [] ∈ d.kr2 := List.mem_of_getElem? e2
  unfold eclRow
  rw [getD_of d.S i hi, e1, e2]
  simp only [Option.bind_eq_bind, Option.bind_some]
  rw [getD_of _ i (by rw [hc.first _ m1]; exact hi)]
  simp only [Option.bind_some]
  rw [getD_of _ i (by rw [(hc.second rfl).1 _ m2]; exact hi)]
  simp only [Option.bind_some]
  rw [getD_of d.P i (by rw [hc.pressures]; exact hi)]
  rfl

theorem eclFile_eq (out : Name) (water : Bool) (krow : Nat → K) (d : Data K) (hc : Complete true d) (c : Nat) (hc3 : c < 3) :
    eclFile out water krow d c = some (eclName out (if c = 0 then 'X' else if c = 1 then 'Y' else 'Z') (if water then 'W' else 'G'),
      (if krow c > 0 then [[0, 0, krow c, 0]] else []) ++ (List.range d.S.length).map fun (i : Nat) =>
        [d.S.getD i 0, (d.kr1.getD c []).getD i 0, (d.kr2.getD c []).getD i 0, d.P.getD i 0 / 100000]) := by
  unfold eclFile
  rw [Pattern.mapM_total _ _ _ (fun i hi => eclRow_eq d hc c i hc3 (List.mem_range.mp hi))]
  rfl

/-- Pressures in pascal. -/
theorem complete_scaled (both : Bool) (d : Data K) (hc : Complete both d) (t : K) : Complete both { d with P := d.P.map fun p => p * t } :=
  ⟨hc.points, by simp [hc.pressures], hc.first, hc.three, hc.second⟩

/-- C126. Without interpolation the table has one row for each computed point, with the capillary pressure times the surface tension (dynes/cm to N/m), the
saturation and all components of the first phase and, if wanted, of the second. The same table is written to the output file, if one is named. -/
theorem C126_table (interp : List K → List K → Option (K → K)) (tension : K) (points : Int) (hp : points ≤ 1) (both water : Bool) (out : Name) (krow : Nat → K)
    (d : Data K) (hc : Complete both d) : ∃ t files, output interp tension points both water out krow d = some (t, files) ∧ t.length = d.S.length ∧
      (∀ i < d.S.length, t[i]? = some ([d.P.getD i 0 * (tension / 1000), d.S.getD i 0] ++ d.kr1.map (·.getD i 0) ++ if both then d.kr2.map (·.getD i 0) else [])) ∧
      (out ≠ [] → (out, t) ∈ files) ∧ (out = [] → files = []) ∧ (both = false → out ≠ [] → files = [(out, t)]) := by
  have hc' := complete_scaled both d hc (tension * (1 / 1000))
  have hprep : prepared interp tension points both d = some { d with P := d.P.map fun p => p * (tension * (1 / 1000)) } := by
    unfold prepared
    simp only
    rw [if_neg (by omega)]
  have hrow : ∀ i < d.S.length, (d.P.map fun p => p * (tension * (1 / 1000))).getD i 0 = d.P.getD i 0 * (tension / 1000) := by
    intro i hi
    rw [List.getD_eq_getElem?_getD, List.getElem?_map, getD_of d.P i (by rw [hc.pressures]; exact hi)]
    simp only [Option.map_some, Option.getD_some]
    ring
  have ht := table_eq both _ hc'
  unfold output eclFiles
  rw [hprep]
  simp only [Option.bind_eq_bind, Option.bind_some, ht]
  by_cases ho : out = []
  · subst ho
    simp only [ne_eq, not_true_eq_false, false_and, if_false, Option.bind_some]
    refine ⟨_, _, rfl, by simp, fun i hi => ?_, fun h => h.elim, fun _ => rfl, fun _ h => h.elim⟩
    rw [List.getElem?_map, List.getElem?_range hi]
    simp only [Option.map_some, hrow i hi, List.cons_append, List.nil_append]
  · cases both with
    | false =>
      simp only [ne_eq, ho, not_false_eq_true, true_and, Bool.false_eq_true, if_false, if_true, Option.bind_some, List.append_nil]
      refine ⟨_, _, rfl, by simp, fun i hi => ?_, fun _ => by simp, fun h => h.elim, fun _ _ => rfl⟩
      rw [List.getElem?_map, List.getElem?_range hi]
      simp only [Option.map_some, hrow i hi, List.cons_append, List.nil_append, List.append_nil]
    | true =>
      simp only [ne_eq, ho, not_false_eq_true, true_and, if_true]
      rw [Pattern.mapM_total [0, 1, 2] _ _ (fun c hcc => eclFile_eq out water krow _ hc' c (by
        simp only [List.mem_cons, List.not_mem_nil, or_false] at hcc; omega))]
      simp only [Option.bind_some]
      refine ⟨_, _, rfl, by simp, fun i hi => ?_, fun _ => by simp, fun h => h.elim, fun h => (by cases h)⟩
      rw [List.getElem?_map, List.getElem?_range hi]
      simp only [Option.map_some, hrow i hi, List.cons_append, List.nil_append]

theorem foldl_min_le (l : List K) (s : K) : l.foldl min s ≤ s ∧ (∀ x ∈ l, l.foldl min s ≤ x) ∧ l.foldl min s ∈ s :: l := by
  induction l generalizing s with
  | nil => exact ⟨le_refl _, fun x hx => absurd hx (by simp), by simp⟩
  | cons a l ih =>
    obtain ⟨h1, h2, h3⟩ := ih (min s a)
    refine ⟨le_trans h1 (min_le_left _ _), fun x hx => ?_, ?_⟩
    · rcases List.mem_cons.mp hx with rfl | hx
      · exact le_trans h1 (min_le_right _ _)
      · exact h2 x hx
    · rw [List.foldl_cons]
      rcases List.mem_cons.mp h3 with h | h
      · rw [h]
        rcases min_choice s a with e | e <;> rw [e] <;> simp
      · simp [h]

theorem le_foldl_max (l : List K) (s : K) : s ≤ l.foldl max s ∧ (∀ x ∈ l, x ≤ l.foldl max s) ∧ l.foldl max s ∈ s :: l := by
  induction l generalizing s with
  | nil => exact ⟨le_refl _, fun x hx => absurd hx (by simp), by simp⟩
  | cons a l ih =>
    obtain ⟨h1, h2, h3⟩ := ih (max s a)
    refine ⟨le_trans (le_max_left _ _) h1, fun x hx => ?_, ?_⟩
    · rcases List.mem_cons.mp hx with rfl | hx
      · exact le_trans (le_max_right _ _) h1
      · exact h2 x hx
    · rw [List.foldl_cons]
      rcases List.mem_cons.mp h3 with h | h
      · rw [h]
        rcases max_choice s a with e | e <;> rw [e] <;> simp
      · simp [h]

theorem evenly_spec (n : Nat) (S : List K) (h : S ≠ []) : ∃ lo hi, (lo ∈ S ∧ ∀ s ∈ S, lo ≤ s) ∧ (hi ∈ S ∧ ∀ s ∈ S, s ≤ hi) ∧
    evenly n S = some ((List.range n).map fun (i : Nat) => lo + (i : K) / ((n - 1 : Nat) : K) * (hi - lo)) := by
  cases S with
  | nil => exact absurd rfl h
  | cons s l =>
    obtain ⟨a1, a2, a3⟩ := foldl_min_le l s
    obtain ⟨b1, b2, b3⟩ := le_foldl_max l s
    exact ⟨l.foldl min s, l.foldl max s, ⟨a3, fun x hx => (List.mem_cons.mp hx).elim (fun e => e ▸ a1) (a2 x)⟩,
      ⟨b3, fun x hx => (List.mem_cons.mp hx).elim (fun e => e ▸ b1) (b2 x)⟩, rfl⟩

theorem resample_eq (interp : List K → List K → Option (K → K)) (curve : List K → K → K) (S S' f : List K) (h : interp S f = some (curve f)) :
    resample interp S S' f = some (S'.map (curve f)) := by
  unfold resample; rw [h]; rfl

/-- C126. With `interpolate` n > 1 the table has exactly n rows; the saturations are equally spaced from the smallest computed one to the largest one, and the
other numbers are the values of the curves through the computed points. -/
theorem C126_interpolated (interp : List K → List K → Option (K → K)) (curve : List K → K → K) (tension : K) (n : Nat) (hn : 1 < n) (both water : Bool) (out : Name)
    (krow : Nat → K) (d : Data K) (hc : Complete both d) (hi : ∀ f, f.length = d.S.length → interp d.S f = some (curve f)) :
    ∃ t files lo hi, output interp tension n both water out krow d = some (t, files) ∧ t.length = n ∧ (lo ∈ d.S ∧ ∀ s ∈ d.S, lo ≤ s) ∧ (hi ∈ d.S ∧ ∀ s ∈ d.S, s ≤ hi) ∧
      ∀ i < n, ∃ s, s = lo + (i : K) * ((hi - lo) / ((n - 1 : Nat) : K)) ∧
        t[i]? = some ([curve (d.P.map fun p => p * (tension / 1000)) s, s] ++ d.kr1.map (fun k => curve k s) ++ if both then d.kr2.map (fun k => curve k s) else []) := by
  obtain ⟨lo, hi', hlo, hhi, he⟩ := evenly_spec n d.S hc.points
  set S' := (List.range n).map fun (i : Nat) => lo + (i : K) / ((n - 1 : Nat) : K) * (hi' - lo) with hS'
  have hP : (d.P.map fun p => p * (tension * (1 / 1000))) = d.P.map fun p => p * (tension / 1000) := by
    apply List.map_congr_left; intro p _; ring
  set d' : Data K := ⟨S'.map (curve (d.P.map fun p => p * (tension / 1000))), S', d.kr1.map (fun k => S'.map (curve k)), if both then d.kr2.map (fun k => S'.map (curve k)) else d.kr2⟩ with hd'
  have hprep : prepared interp tension n both d = some d' := by
    unfold prepared
    simp only
    rw [if_pos (by omega), hP]
    unfold interpolated
    simp only [Int.toNat_natCast, he, Option.bind_eq_bind, Option.bind_some]
    rw [resample_eq interp curve d.S _ _ (hi _ (by simp [hc.pressures])), Pattern.mapM_total d.kr1 _ (fun k => S'.map (curve k)) (fun k hk => resample_eq interp curve d.S S' k (hi k (hc.first k hk)))]
    simp only [Option.bind_some]
    cases both with
    | false => simp [hd']
    | true =>
      rw [if_pos rfl, Pattern.mapM_total d.kr2 _ (fun k => S'.map (curve k)) (fun k hk => resample_eq interp curve d.S S' k (hi k ((hc.second rfl).1 k hk)))]
      simp [hd']
  have hlen : S'.length = n := by simp [hS']
  have hc' : Complete both d' := by
    refine ⟨fun h => ?_, by simp [hd'], fun k hk => ?_, by simpa [hd'] using hc.three, fun hb => ⟨fun k hk => ?_, ?_⟩⟩
    · have hh : S' = [] := h
      rw [hh] at hlen
      simp at hlen; omega
    · obtain ⟨k', _, rfl⟩ := List.mem_map.mp hk
      simp [hd']
    · subst hb
      obtain ⟨k', _, rfl⟩ := List.mem_map.mp (show k ∈ d.kr2.map (fun k => S'.map (curve k)) from hk)
      simp [hd']
    · subst hb
      simpa [hd'] using (hc.second rfl).2
  have ht := table_eq both d' hc'
  have hS'i : ∀ i < n, S'.getD i 0 = lo + (i : K) * ((hi' - lo) / ((n - 1 : Nat) : K)) := by
    intro i hin
    rw [List.getD_eq_getElem?_getD, hS', List.getElem?_map, List.getElem?_range hin]
    simp only [Option.map_some, Option.getD_some]
    ring
  have hmap : ∀ (g : K → K) i, i < n → (S'.map g).getD i 0 = g (S'.getD i 0) := by
    intro g i hin
    rw [List.getD_eq_getElem?_getD, List.getElem?_map, getD_of S' i (by omega)]
    rfl
  have hecl : ∃ e, eclFiles both water out krow d' = some e := by
    unfold eclFiles
    by_cases h : out ≠ [] ∧ both = true
    · rw [if_pos h]
      obtain ⟨_, rfl⟩ := h
      exact ⟨_, Pattern.mapM_total [0, 1, 2] _ _ (fun c hcc => eclFile_eq out water krow _ hc' c (by
        simp only [List.mem_cons, List.not_mem_nil, or_false] at hcc; omega))⟩
    · rw [if_neg h]; exact ⟨_, rfl⟩
  obtain ⟨e, hecl⟩ := hecl
  unfold output
  rw [hprep]
  simp only [Option.bind_eq_bind, Option.bind_some, ht, hecl]
  refine ⟨_, _, lo, hi', rfl, by simp [hd', hlen], hlo, hhi, fun i hin => ⟨_, rfl, ?_⟩⟩
  rw [List.getElem?_map, List.getElem?_range (by rw [show d'.S.length = n from hlen]; exact hin)]
  rw [← hS'i i hin]
  simp only [Option.map_some, hd', hmap _ i hin, List.map_map, Function.comp_def]
  cases both with
  | false => simp
  | true =>
    have hk : (d.kr2.map fun k => S'.map (curve k)).map (fun x => x.getD i 0) = d.kr2.map (fun k => curve k (S'.getD i 0)) := by
      rw [List.map_map]
      exact List.map_congr_left fun k _ => hmap _ i hin
    simp only [if_true, hk, List.cons_append, List.nil_append]

/-- C126. If an output file is named and both phases are upscaled, three more files are written, for the directions x, y and z, with the saturations, the
diagonal relative permeabilities of both phases and the capillary pressure in bar in each row, after an extra first row iff the option `krow?swirr` is positive. -/
theorem C126_eclipse (interp : List K → List K → Option (K → K)) (tension : K) (points : Int) (hp : points ≤ 1) (water : Bool) (out : Name) (ho : out ≠ []) (krow : Nat → K)
    (d : Data K) (hc : Complete true d) : ∃ t x y z, output interp tension points true water out krow d = some (t, [(out, t), x, y, z]) ∧
      ∀ c (h : c < 3), ∃ first, (0 < krow c → first = [[0, 0, krow c, 0]]) ∧ (¬ 0 < krow c → first = []) ∧
        ([x, y, z][c].2 = first ++ (List.range d.S.length).map fun (i : Nat) =>
          [d.S.getD i 0, (d.kr1.getD c []).getD i 0, (d.kr2.getD c []).getD i 0, d.P.getD i 0 * (tension / 1000) / 100000]) := by
  have hc' := complete_scaled true d hc (tension * (1 / 1000))
  have hprep : prepared interp tension points true d = some { d with P := d.P.map fun p => p * (tension * (1 / 1000)) } := by
    unfold prepared
    simp only
    rw [if_neg (by omega)]
  have hrow : ∀ i < d.S.length, (d.P.map fun p => p * (tension * (1 / 1000))).getD i 0 = d.P.getD i 0 * (tension / 1000) := by
    intro i hi
    rw [List.getD_eq_getElem?_getD, List.getElem?_map, getD_of d.P i (by rw [hc.pressures]; exact hi)]
    simp only [Option.map_some, Option.getD_some]
    ring
  unfold output eclFiles
  rw [hprep]
  simp only [Option.bind_eq_bind, Option.bind_some, table_eq true _ hc', ne_eq, ho, not_false_eq_true, true_and, if_true]
  rw [Pattern.mapM_total [0, 1, 2] _ _ (fun c hcc => eclFile_eq out water krow _ hc' c (by
    simp only [List.mem_cons, List.not_mem_nil, or_false] at hcc; omega))]
  refine ⟨_, _, _, _, rfl, fun c h => ⟨if krow c > 0 then [[0, 0, krow c, 0]] else [], fun hk => if_pos hk, fun hk => if_neg hk, ?_⟩⟩
  have e : ∀ c, ((List.range d.S.length).map fun (i : Nat) => [d.S.getD i 0, (d.kr1.getD c []).getD i 0, (d.kr2.getD c []).getD i 0, (d.P.map fun p => p * (tension * (1 / 1000))).getD i 0 / 100000]) =
      (List.range d.S.length).map fun (i : Nat) => [d.S.getD i 0, (d.kr1.getD c []).getD i 0, (d.kr2.getD c []).getD i 0, d.P.getD i 0 * (tension / 1000) / 100000] := by
    intro c
    apply List.map_congr_left
    intro i hi
    rw [hrow i (List.mem_range.mp hi)]
  rw [← e c]
  interval_cases c <;> rfl

/-- C126. The names of these files: for an output file `base.ext`, where `ext` has no dot, they are `base-X.SWOF`, `base-Y.SWOF` and `base-Z.SWOF` for oil and water,
with `SGOF` for gas and oil; for an output file without dots the ending is appended to the whole name. -/
theorem C126_names (interp : List K → List K → Option (K → K)) (tension : K) (points : Int) (hp : points ≤ 1) (water : Bool) (out base : Name) (ho : out ≠ []) (krow : Nat → K)
    (d : Data K) (hc : Complete true d) (hb : ('.' ∉ out ∧ base = out) ∨ ∃ ext, '.' ∉ ext ∧ out = base ++ '.' :: ext) :
    (output interp tension points true water out krow d).map (fun r => r.2.map Prod.fst) =
      some [out, base ++ '-' :: 'X' :: '.' :: 'S' :: (if water then 'W' else 'G') :: 'O' :: 'F' :: [],
        base ++ '-' :: 'Y' :: '.' :: 'S' :: (if water then 'W' else 'G') :: 'O' :: 'F' :: [], base ++ '-' :: 'Z' :: '.' :: 'S' :: (if water then 'W' else 'G') :: 'O' :: 'F' :: []] := by
  have hc' := complete_scaled true d hc (tension * (1 / 1000))
  have hprep : prepared interp tension points true d = some { d with P := d.P.map fun p => p * (tension * (1 / 1000)) } := by
    unfold prepared
    simp only
    rw [if_neg (by omega)]
  have hname : ∀ a b, eclName out a b = base ++ ['-', a, '.', 'S', b, 'O', 'F'] := by
    intro a b
    unfold eclName
    rcases hb with ⟨h1, rfl⟩ | ⟨ext, h1, h2⟩
    · rw [if_neg h1]
    · rw [if_pos (by rw [h2]; simp)]
      have : out.reverse.dropWhile (· ≠ '.') = '.' :: base.reverse := by
        rw [h2]
        simp only [List.reverse_append, List.reverse_cons, List.append_assoc]
        rw [List.dropWhile_append_of_pos (fun x hx => by
          have : x ≠ '.' := fun e => h1 (e ▸ List.mem_reverse.mp hx)
          simpa using this)]
        simp
      rw [this]
      simp
  unfold output eclFiles
  rw [hprep]
  simp only [Option.bind_eq_bind, Option.bind_some, table_eq true _ hc', ne_eq, ho, not_false_eq_true, true_and, if_true]
  rw [Pattern.mapM_total [0, 1, 2] _ _ (fun c hcc => eclFile_eq out water krow _ hc' c (by
    simp only [List.mem_cons, List.not_mem_nil, or_false] at hcc; omega))]
  simp [hname]

/-! ### Instances -/

/-- Two points, three components of each phase. -/
def exData : Data ℚ := ⟨[3, 1], [1 / 4, 3 / 4], [[0, 1], [0, 1 / 2], [0, 1 / 3]], [[1, 0], [1 / 2, 0], [1 / 3, 0]]⟩

theorem exData_complete (both : Bool) : Complete both exData :=
  ⟨by decide +kernel, by decide +kernel, by decide +kernel, by decide +kernel, fun _ => by decide +kernel⟩

/-- Straight lines through the first and the last point. -/
def line (S f : List ℚ) : Option (ℚ → ℚ) :=
  match S, f with
  | [a, b], [y, z] => some fun s => y + (s - a) / (b - a) * (z - y)
  | _, _ => none

example := C126_table line 11 0 (by decide) false true "r.txt".toList (fun _ => 0) exData (exData_complete false)
example := C126_eclipse line 11 0 (by decide) true "r.txt".toList (by decide) (fun _ => 0) exData (exData_complete true)
example := C126_names line 11 0 (by decide) true "r.txt".toList "r".toList (by decide) (fun _ => 0) exData (exData_complete true) (Or.inr ⟨"txt".toList, by decide, by decide⟩)
example := C126_interpolated line (fun f s => f.getD 0 0 + (s - 1 / 4) / (3 / 4 - 1 / 4) * (f.getD 1 0 - f.getD 0 0)) 11 3 (by decide) true true "r.txt".toList (fun _ => 0) exData
  (exData_complete true) (fun f hf => by
    match f, hf with
    | [y, z], _ => rfl)
example : (output line 1000 3 true true "r.txt".toList (fun _ => 0) exData).map Prod.fst = some [[3, 1/4, 0, 0, 0, 1, 1/2, 1/3], [2, 1/2, 1/2, 1/4, 1/6, 1/2, 1/4, 1/6], [1, 3/4, 1, 1/2, 1/3, 0, 0, 0]] := by
  decide +kernel

/-! ### Violations -/

/-- C126, violated: the names depend on a dot anywhere in the path. An output in the current directory, `./result`, gives files named `-X.SWOF` elsewhere in the
path, `results.d/kr` gives `results-X.SWOF` outside the directory. -/
theorem C126_violated_path :
    (output line 1000 0 true true "./result".toList (fun _ => 0) exData).map (fun r => r.2.map Prod.fst) = some ["./result".toList, "-X.SWOF".toList, "-Y.SWOF".toList, "-Z.SWOF".toList] ∧
    (output line 1000 0 true true "results.d/kr".toList (fun _ => 0) exData).map (fun r => r.2.map Prod.fst) =
      some ["results.d/kr".toList, "results-X.SWOF".toList, "results-Y.SWOF".toList, "results-Z.SWOF".toList] := by
  decide +kernel

/-- C126, violated: the options `krow?swirr` have, according to the usage, only an effect for gas and oil; they change the tables for oil and water as well. -/
theorem C126_violated_krow : ∃ krow : Nat → ℚ, (output line 1000 0 true true "r".toList krow exData).map (fun r => r.2.map fun f => f.2.length) = some [2, 3, 3, 3] ∧
    (output line 1000 0 true true "r".toList (fun _ => 0) exData).map (fun r => r.2.map fun f => f.2.length) = some [2, 2, 2, 2] := by
  refine ⟨fun _ => 1 / 2, ?_⟩
  decide +kernel

/-- C126, violated: the usage promises a grid with the given number of points; for one point the data is not touched. -/
theorem C126_violated_one : (output line 1000 1 true true [] (fun _ => 0) exData).map (fun r => r.1.length) = some 2 := by
  decide +kernel

end Verif.RelPermOut
