import Verif.Spec.RockFiles
import Verif.Spec.Elastic
import Verif.Props.MaterialLoad
import Mathlib.Algebra.BigOperators.Ring.List
import Mathlib.Data.Rat.Encodable

/-!
Property C142: rock files, rock lists, the arrangement `uniform`, and the parameters and text of a material.
-/

namespace Verif.RockFiles

open Verif.Elastic Spec Verif.Elastic.Spec

variable {K : Type} [Field K] [LinearOrder K]

omit [LinearOrder K] in
theorem numbers_bad (num : String → Option K) (n : Nat) (l : List String) :
    (In.numbers num n ⟨l, false⟩).2 = ⟨l, false⟩ := by
  induction n with
  | zero => rfl
  | succ n ih => exact ih

omit [LinearOrder K] in
theorem numbers_spec (num : String → Option K) (n : Nat) (l : List String) :
    (∃ ws cs l', l = ws ++ l' ∧ ws.length = n ∧ ws.map num = cs.map some ∧ In.numbers num n ⟨l, true⟩ = (cs, ⟨l', true⟩)) ∨
      ((In.numbers num n ⟨l, true⟩).2.good = false ∧
        ∀ ws l', l = ws ++ l' → ws.length = n → ∀ cs : List K, ws.map num ≠ cs.map some) := by
  induction n generalizing l with
  | zero =>
    left
    exact ⟨[], [], l, rfl, rfl, rfl, rfl⟩
  | succ n ih =>
    cases l with
    | nil =>
      right
      constructor
      · show (In.numbers num n ⟨[], false⟩).2.good = false
        rw [numbers_bad]
      · intro ws l' h hn
        have : ws = [] := (List.append_eq_nil_iff.mp h.symm).1
        subst this
        cases hn
    | cons w l =>
      cases hw : num w with
      | none =>
        right
        constructor
        · have : (In.number num ⟨w :: l, true⟩).2 = ⟨w :: l, false⟩ := by simp [In.number, hw]
          simp only [In.numbers, this, numbers_bad]
        · intro ws l' h hn cs hc
          cases ws with
          | nil => cases hn
          | cons v ws =>
            cases h
            cases cs with
            | nil => cases hc
            | cons c cs =>
              rw [List.map_cons, List.map_cons, hw] at hc
              cases hc
      | some x =>
        have hx : In.number num ⟨w :: l, true⟩ = (x, ⟨l, true⟩) := by simp [In.number, hw]
        rcases ih l with ⟨ws, cs, l', h1, h2, h3, h4⟩ | ⟨h1, h2⟩
        · left
          refine ⟨w :: ws, x :: cs, l', by rw [h1]; rfl, by rw [List.length_cons, h2], ?_, ?_⟩
          · rw [List.map_cons, List.map_cons, hw, h3]
          · simp only [In.numbers, hx, h4]
        · right
          refine ⟨?_, ?_⟩
          · simp only [In.numbers, hx, h1]
          · intro ws l' h hn cs hc
            cases ws with
            | nil => cases hn
            | cons v ws =>
              cases h
              cases cs with
              | nil => cases hc
              | cons c cs => exact h2 ws l' rfl (Nat.succ.inj hn) cs (List.cons.inj hc).2

omit [LinearOrder K] in
theorem density_bad (num : String → Option K) (s : In) (h : s.good = false) : s.density num = none := by
  obtain ⟨l, g⟩ := s
  cases h
  simp [In.density, In.word]

omit [LinearOrder K] in
theorem density_spec (num : String → Option K) (l : List String) (rho : K) :
    In.density num ⟨l, true⟩ = some rho ↔ Ends num l rho := by
  cases l with
  | nil =>
    constructor
    · intro h
      simp [In.density, In.word] at h
    · intro h
      cases h
  | cons w l =>
    by_cases hw : w = "density"
    · subst hw
      have e : In.density num ⟨"density" :: l, true⟩ = some ((In.number num ⟨l, true⟩).1) := by simp [In.density, In.word]
      rw [e, Option.some.injEq]
      cases l with
      | nil =>
        constructor
        · intro h
          subst h
          exact .nothing
        · intro h
          cases h
          rfl
      | cons v l =>
        cases hv : num v with
        | none =>
          have e2 : (In.number num ⟨v :: l, true⟩).1 = 0 := by simp [In.number, hv]
          rw [e2]
          constructor
          · intro h
            subst h
            exact .noNumber v l hv
          · intro h
            cases h with
            | value _ _ _ h' => rw [hv] at h'; cases h'
            | noNumber _ _ _ => rfl
        | some x =>
          have e2 : (In.number num ⟨v :: l, true⟩).1 = x := by simp [In.number, hv]
          rw [e2]
          constructor
          · intro h
            subst h
            exact .value v l x hv
          · intro h
            cases h with
            | value _ _ _ h' => rw [hv] at h'; exact Option.some.inj h'
            | noNumber _ _ h' => rw [hv] at h'; cases h'
    · constructor
      · intro h
        simp [In.density, In.word, hw] at h
      · intro h
        cases h <;> exact absurd rfl hw

theorem map_two {num : String → Option K} {ws : List String} {cs : List K} (hn : ws.length = 2) (h : ws.map num = cs.map some) :
    ∃ wa wb a b, ws = [wa, wb] ∧ cs = [a, b] ∧ num wa = some a ∧ num wb = some b := by
  obtain ⟨wa, wb, rfl⟩ := List.length_eq_two.mp hn
  have hc : cs.length = 2 := by simpa using (congrArg List.length h).symm
  obtain ⟨a, b, rfl⟩ := List.length_eq_two.mp hc
  simp only [List.map_cons, List.map_nil, List.cons.injEq, and_true] at h
  exact ⟨wa, wb, a, b, rfl, rfl, h.1, h.2⟩

theorem map_five {num : String → Option K} {ws : List String} {cs : List K} (hn : ws.length = 5) (h : ws.map num = cs.map some) :
    ∃ w1 w2 w3 w4 w5 a b c d e, ws = [w1, w2, w3, w4, w5] ∧ cs = [a, b, c, d, e] ∧ num w1 = some a ∧ num w2 = some b ∧
      num w3 = some c ∧ num w4 = some d ∧ num w5 = some e := by
  have hc : cs.length = 5 := by simpa [hn] using (congrArg List.length h).symm
  match ws, hn, cs, hc, h with
  | [w1, w2, w3, w4, w5], _, [a, b, c, d, e], _, h =>
    simp only [List.map_cons, List.map_nil, List.cons.injEq, and_true] at h
    exact ⟨w1, w2, w3, w4, w5, a, b, c, d, e, rfl, rfl, h.1, h.2.1, h.2.2.1, h.2.2.2.1, h.2.2.2.2⟩

/-- C142: a rock file is accepted exactly if it is a keyword, the numbers belonging to it and the density, and then it means just
that. -/
theorem C142_file (num : String → Option K) (text : List String) (r : RockFile K) :
    parseRock num text = some r ↔ Describes num text r := by
  cases text with
  | nil =>
    constructor
    · intro h
      have hp : parseRock num [] = ((In.numbers num 2 ⟨[], false⟩).2.density num).bind fun rho =>
          twoModuli "" ((In.numbers num 2 ⟨[], false⟩).1.getD 0 0) ((In.numbers num 2 ⟨[], false⟩).1.getD 1 0) rho := by
        simp [parseRock, In.word]
      rw [hp, density_bad _ _ (by rw [numbers_bad])] at h
      cases h
    · intro h
      cases h
  | cons key l =>
    by_cases h1 : key = "ti"
    · subst h1
      have hp : parseRock num ("ti" :: l) = ((In.numbers num 5 ⟨l, true⟩).2.density num).map fun rho =>
          .ti ((In.numbers num 5 ⟨l, true⟩).1.getD 0 0) ((In.numbers num 5 ⟨l, true⟩).1.getD 1 0)
            ((In.numbers num 5 ⟨l, true⟩).1.getD 2 0) ((In.numbers num 5 ⟨l, true⟩).1.getD 3 0)
            ((In.numbers num 5 ⟨l, true⟩).1.getD 4 0) rho := rfl
      rw [hp]
      rcases numbers_spec num 5 l with ⟨ws, cs, l', g1, g2, g3, g4⟩ | ⟨g1, g2⟩
      · obtain ⟨w1, w2, w3, w4, w5, a, b, c, d, e, rfl, rfl, k1, k2, k3, k4, k5⟩ := map_five g2 g3
        rw [g4, Option.map_eq_some_iff]
        subst g1
        constructor
        · rintro ⟨rho, hr, rfl⟩
          exact .ti w1 w2 w3 w4 w5 a b c d e rho l' k1 k2 k3 k4 k5 ((density_spec num l' rho).mp hr)
        · intro h
          generalize ht : "ti" :: ([w1, w2, w3, w4, w5] ++ l') = t at h
          cases h with
          | anisotropic => exact absurd (List.cons.inj ht).1 (by decide)
          | vpvs => exact absurd (List.cons.inj ht).1 (by decide)
          | km => exact absurd (List.cons.inj ht).1 (by decide)
          | lm => exact absurd (List.cons.inj ht).1 (by decide)
          | en => exact absurd (List.cons.inj ht).1 (by decide)
          | ti _ _ _ _ _ a' b' c' d' e' rho _ ha hb hc hd he hl =>
            cases ht
            rw [k1] at ha
            rw [k2] at hb
            rw [k3] at hc
            rw [k4] at hd
            rw [k5] at he
            cases ha
            cases hb
            cases hc
            cases hd
            cases he
            exact ⟨rho, (density_spec num l' rho).mpr hl, rfl⟩
      · rw [density_bad _ _ g1]
        constructor
        · intro h
          cases h
        · intro h
          generalize ht : "ti" :: l = t at h
          cases h with
          | anisotropic => exact absurd (List.cons.inj ht).1 (by decide)
          | vpvs => exact absurd (List.cons.inj ht).1 (by decide)
          | km => exact absurd (List.cons.inj ht).1 (by decide)
          | lm => exact absurd (List.cons.inj ht).1 (by decide)
          | en => exact absurd (List.cons.inj ht).1 (by decide)
          | ti w1 w2 w3 w4 w5 a b c d e rho l' ha hb hc hd he hl =>
            cases ht
            exact absurd (by simp [ha, hb, hc, hd, he]) (g2 [w1, w2, w3, w4, w5] l' rfl rfl [a, b, c, d, e])
    · by_cases h2 : key = "anisotropic"
      · subst h2
        have hp : parseRock num ("anisotropic" :: l) = ((In.numbers num 21 ⟨l, true⟩).2.density num).map fun rho =>
            .anisotropic (In.numbers num 21 ⟨l, true⟩).1 rho := rfl
        rw [hp]
        rcases numbers_spec num 21 l with ⟨ws, cs, l', g1, g2, g3, g4⟩ | ⟨g1, g2⟩
        · rw [g4, Option.map_eq_some_iff]
          subst g1
          constructor
          · rintro ⟨rho, hr, rfl⟩
            exact .anisotropic ws cs rho l' g2 g3 ((density_spec num l' rho).mp hr)
          · intro h
            generalize ht : "anisotropic" :: (ws ++ l') = t at h
            cases h with
            | anisotropic ws' cs' rho l'' hn hw hl =>
              obtain ⟨e1, e2⟩ := List.append_inj (List.cons.inj ht).2 (by rw [g2, hn])
              subst e1
              subst e2
              have : cs = cs' := List.map_injective_iff.mpr (Option.some_injective K) (by rw [← g3, hw])
              subst this
              exact ⟨rho, (density_spec num l' rho).mpr hl, rfl⟩
            | ti => exact absurd (List.cons.inj ht).1 (by decide)
            | vpvs => exact absurd (List.cons.inj ht).1 (by decide)
            | km => exact absurd (List.cons.inj ht).1 (by decide)
            | lm => exact absurd (List.cons.inj ht).1 (by decide)
            | en => exact absurd (List.cons.inj ht).1 (by decide)
        · rw [density_bad _ _ g1]
          constructor
          · intro h
            cases h
          · intro h
            generalize ht : "anisotropic" :: l = t at h
            cases h with
            | anisotropic ws' cs' rho l'' hn hw hl => exact absurd hw (g2 ws' l'' (List.cons.inj ht).2 hn cs')
            | ti => exact absurd (List.cons.inj ht).1 (by decide)
            | vpvs => exact absurd (List.cons.inj ht).1 (by decide)
            | km => exact absurd (List.cons.inj ht).1 (by decide)
            | lm => exact absurd (List.cons.inj ht).1 (by decide)
            | en => exact absurd (List.cons.inj ht).1 (by decide)
      · have hp : parseRock num (key :: l) = ((In.numbers num 2 ⟨l, true⟩).2.density num).bind fun rho =>
            twoModuli key ((In.numbers num 2 ⟨l, true⟩).1.getD 0 0) ((In.numbers num 2 ⟨l, true⟩).1.getD 1 0) rho := by
          simp [parseRock, In.word, h1, h2]
        rw [hp]
        rcases numbers_spec num 2 l with ⟨ws, cs, l', g1, g2, g3, g4⟩ | ⟨g1, g2⟩
        · obtain ⟨wa, wb, a, b, rfl, rfl, k1, k2⟩ := map_two g2 g3
          rw [g4, Option.bind_eq_some_iff]
          subst g1
          constructor
          · rintro ⟨rho, hr, h⟩
            have hl := (density_spec num l' rho).mp hr
            replace h : twoModuli key a b rho = some r := h
            unfold twoModuli at h
            by_cases j1 : key = "vpvs"
            · rw [if_pos j1] at h
              cases h
              subst j1
              exact .vpvs wa wb a b rho l' k1 k2 hl
            · rw [if_neg j1] at h
              by_cases j2 : key = "km"
              · rw [if_pos j2] at h
                cases h
                subst j2
                exact .km wa wb a b rho l' k1 k2 hl
              · rw [if_neg j2] at h
                by_cases j3 : key = "lm"
                · rw [if_pos j3] at h
                  cases h
                  subst j3
                  exact .lm wa wb a b rho l' k1 k2 hl
                · rw [if_neg j3] at h
                  by_cases j4 : key = "en"
                  · rw [if_pos j4] at h
                    cases h
                    subst j4
                    exact .en wa wb a b rho l' k1 k2 hl
                  · rw [if_neg j4] at h
                    cases h
          · intro h
            have fin : ∀ (a' b' rho : K), num wa = some a' → num wb = some b' → Ends num l' rho →
                twoModuli key a' b' rho = some r →
                ∃ rho, In.density num ⟨l', true⟩ = some rho ∧ twoModuli key ([a, b].getD 0 0) ([a, b].getD 1 0) rho = some r := by
              intro a' b' rho ha hb hl ht
              rw [k1] at ha
              rw [k2] at hb
              cases ha
              cases hb
              exact ⟨rho, (density_spec num l' rho).mpr hl, ht⟩
            generalize ht : key :: ([wa, wb] ++ l') = t at h
            cases h with
            | ti => exact absurd (List.cons.inj ht).1 h1
            | anisotropic => exact absurd (List.cons.inj ht).1 h2
            | vpvs _ _ a' b' rho _ ha hb hl => cases ht; exact fin a' b' rho ha hb hl rfl
            | km _ _ a' b' rho _ ha hb hl => cases ht; exact fin a' b' rho ha hb hl rfl
            | lm _ _ a' b' rho _ ha hb hl => cases ht; exact fin a' b' rho ha hb hl rfl
            | en _ _ a' b' rho _ ha hb hl => cases ht; exact fin a' b' rho ha hb hl rfl
        · rw [density_bad _ _ g1]
          constructor
          · intro h
            cases h
          · intro h
            have fin : ∀ (wa wb : String) (a b : K) (l' : List String), l = wa :: wb :: l' → num wa = some a → num wb = some b → False := by
              intro wa wb a b l' hl ha hb
              exact g2 [wa, wb] l' hl rfl [a, b] (by simp [ha, hb])
            generalize ht : key :: l = t at h
            cases h with
            | ti => exact absurd (List.cons.inj ht).1 h1
            | anisotropic => exact absurd (List.cons.inj ht).1 h2
            | vpvs wa wb a b rho l' ha hb hl => exact (fin wa wb a b l' (List.cons.inj ht).2 ha hb).elim
            | km wa wb a b rho l' ha hb hl => exact (fin wa wb a b l' (List.cons.inj ht).2 ha hb).elim
            | lm wa wb a b rho l' ha hb hl => exact (fin wa wb a b l' (List.cons.inj ht).2 ha hb).elim
            | en wa wb a b rho l' ha hb hl => exact (fin wa wb a b l' (List.cons.inj ht).2 ha hb).elim

/-- The words `1`, `2`, `3` and `4` are numbers. -/
def exNum : String → Option ℚ := fun w => if w = "1" then some 1 else if w = "2" then some 2 else if w = "3" then some 3
  else if w = "4" then some 4 else none

example : Describes exNum ["km", "4", "3", "density", "2", "remark"] (.km 4 3 2) :=
  .km "4" "3" 4 3 2 _ rfl rfl (.value "2" ["remark"] 2 rfl)

/-- C142: what becomes of a named rock file. One that cannot be opened stands for the default material, one without a meaning ends the
program, and the others give the material they describe. -/
theorem C142_named (num : String → Option K) (files : String → Option (List String)) (name : String) :
    (files name = none → createNamed num files name = .material (.iso 100 (38 / 100) 3)) ∧
    (∀ text r, files name = some text → Describes num text r → createNamed num files name = createFile r) ∧
    (∀ text, files name = some text → (∀ r, ¬ Describes num text r) → createNamed num files name = .exit) := by
  refine ⟨fun h => by rw [createNamed, h], fun text r h hd => ?_, fun text h hd => ?_⟩
  · rw [createNamed, h]
    simp only [(C142_file num text r).mpr hd]
  · rw [createNamed, h]
    cases hp : parseRock num text with
    | none => simp only [hp]
    | some r => exact absurd ((C142_file num text r).mp hp) (hd r)

/-- A rock given by velocities without a value of the density is accepted, although its moduli are not numbers. -/
theorem C142_violated_no_density (num : String → Option K) (files : String → Option (List String)) (name wp ws : String) (vp vs : K)
    (hp : num wp = some vp) (hs : num ws = some vs) (hf : files name = some ["vpvs", wp, ws, "density"]) :
    createNamed num files name = .nan := by
  rw [((C142_named num files name).2.1 _ _ hf (.vpvs wp ws vp vs 0 _ hp hs .nothing))]
  simp [createFile, isoOrExit, fromKM, Upscale.quot]

theorem readMats_spec (num : String → Option K) (files : String → Option (List String)) (names rest : List String)
    (ms : List (Material K)) (h : List.Forall₂ (fun name m => createNamed num files name = .material m) names ms) :
    readMats num files names.length ⟨names ++ rest, true⟩ = .ok ms := by
  induction h with
  | nil => rfl
  | @cons name m names ms h1 h2 ih =>
    have hw : In.word ⟨(name :: names) ++ rest, true⟩ = (name, ⟨names ++ rest, true⟩) := rfl
    rw [List.length_cons, readMats, hw]
    simp only [h1, ih]

theorem readMats_ok (num : String → Option K) (files : String → Option (List String)) (names rest : List String)
    (ms : List (Material K)) (h : readMats num files names.length ⟨names ++ rest, true⟩ = .ok ms) :
    List.Forall₂ (fun name m => createNamed num files name = .material m) names ms := by
  induction names generalizing ms with
  | nil =>
    cases h
    exact .nil
  | cons name names ih =>
    have hw : In.word ⟨(name :: names) ++ rest, true⟩ = (name, ⟨names ++ rest, true⟩) := rfl
    rw [List.length_cons, readMats, hw] at h
    dsimp only at h
    cases hc : createNamed num files name with
    | exit => rw [hc] at h; cases h
    | nan =>
      cases hr : readMats num files names.length ⟨names ++ rest, true⟩ <;> rw [hc, hr] at h <;> cases h
    | material m =>
      cases hr : readMats num files names.length ⟨names ++ rest, true⟩ with
      | exit => rw [hc, hr] at h; cases h
      | ub => rw [hc, hr] at h; cases h
      | nan => rw [hc, hr] at h; cases h
      | ok l =>
        rw [hc, hr] at h
        cases h
        exact .cons hc (ih l hr)

/-- C142: a rock list holding the number of rocks and their file names gives the materials of these files, in this order, if all of
them give one, and no list of materials otherwise; words after the last name do not matter. -/
theorem C142_list (num : String → Option K) (int : String → Option Int) (files : String → Option (List String)) (list w : String)
    (names rest : List String) (ms : List (Material K)) (hl : files list = some (w :: (names ++ rest)))
    (hw : int w = some (names.length : Int)) :
    readList num int files list = .ok ms ↔
      List.Forall₂ (fun name m => createNamed num files name = .material m) names ms := by
  simp only [readList, hl, hw, Int.toNat_natCast]
  exact ⟨readMats_ok num files names rest ms, readMats_spec num files names rest ms⟩

theorem readMats_exit (num : String → Option K) (files : String → Option (List String)) (before after rest : List String) (name : String)
    (h : createNamed num files name = .exit) :
    readMats num files (before ++ name :: after).length ⟨(before ++ name :: after) ++ rest, true⟩ = .exit := by
  induction before with
  | nil =>
    have hw : In.word ⟨([] ++ name :: after) ++ rest, true⟩ = (name, ⟨after ++ rest, true⟩) := rfl
    rw [List.nil_append, List.length_cons, readMats, ← List.nil_append (name :: after), hw]
    simp only [h]
  | cons b before ih =>
    have hw : In.word ⟨((b :: before) ++ name :: after) ++ rest, true⟩ = (b, ⟨(before ++ name :: after) ++ rest, true⟩) := rfl
    rw [List.cons_append, List.length_cons, readMats, ← List.cons_append, hw]
    simp only [ih]
    cases createNamed num files b <;> rfl

/-- C142: one rock file that is refused ends the program, whatever the other files hold. -/
theorem C142_list_exit (num : String → Option K) (int : String → Option Int) (files : String → Option (List String))
    (list w : String) (names rest : List String) (hl : files list = some (w :: (names ++ rest))) (hw : int w = some (names.length : Int))
    (name : String) (hn : name ∈ names) (text : List String) (hf : files name = some text)
    (hd : ∀ r, Describes num text r → createFile r = .exit) :
    readList num int files list = .exit := by
  obtain ⟨before, after, rfl⟩ := List.append_of_mem hn
  simp only [readList, hl, hw, Int.toNat_natCast]
  refine readMats_exit num files before after rest name ?_
  by_cases h : ∃ r, Describes num text r
  · obtain ⟨r, hr⟩ := h
    rw [(C142_named num files name).2.1 text r hf hr, hd r hr]
  · exact (C142_named num files name).2.2 text hf fun r hr => h ⟨r, hr⟩

theorem readMats_default (num : String → Option K) (files : String → Option (List String)) (h : files "" = none) (n : Nat)
    (l : List String) : readMats num files n ⟨l, false⟩ = .ok (List.replicate n (.iso 100 (38 / 100) 3)) := by
  induction n with
  | zero => rfl
  | succ n ih =>
    have hw : In.word ⟨l, false⟩ = ("", ⟨l, false⟩) := rfl
    rw [readMats, hw]
    simp only [ih, (C142_named num files "").1 h, List.replicate_succ]

/-- A rock list naming fewer files than it announces is accepted: the missing rocks are the default material. So is a list that does
not begin with a number, which has no rocks. -/
theorem C142_violated_list (num : String → Option K) (int : String → Option Int) (files : String → Option (List String))
    (list w : String) (he : files "" = none) :
    (∀ n : Nat, files list = some [w] → int w = some (n : Int) →
      readList num int files list = .ok (List.replicate n (.iso 100 (38 / 100) 3))) ∧
    (∀ l, files list = some (w :: l) → int w = none → readList num int files list = .ok []) ∧
    (files list = none ∨ files list = some [] → readList num int files list = .ub) := by
  refine ⟨fun n hl hw => ?_, fun l hl hw => ?_, fun hl => ?_⟩
  · simp only [readList, hl, hw, Int.toNat_natCast]
    cases n with
    | zero => rfl
    | succ n =>
      have hw : In.word ⟨[], true⟩ = ("", ⟨[], false⟩) := rfl
      rw [readMats, hw]
      simp only [readMats_default num files he, (C142_named num files "").1 he, List.replicate_succ]
  · simp only [readList, hl, hw]
  · rcases hl with hl | hl <;> simp only [readList, hl]

/-- A rock list with a rock that has a file and one that has none. -/
def exFiles : String → Option (List String) := fun f =>
  if f = "list" then some ["2", "stiff", "soft"] else if f = "stiff" then some ["ti", "4", "3", "2", "1", "1", "density", "2"]
  else if f = "bad" then some ["ti", "4", "3", "density", "2"] else none

/-- Reading the numbers of rocks. -/
def exInt : String → Option Int := fun w => if w = "2" then some 2 else none

example : ∃ m, readList exNum exInt exFiles "list" = .ok [m, .iso 100 (38 / 100) 3] :=
  ⟨_, (C142_list exNum exInt exFiles "list" "2" ["stiff", "soft"] [] _ rfl rfl).mpr
    (.cons ((C142_named exNum exFiles "stiff").2.1 _ _ rfl
      (.ti "4" "3" "2" "1" "1" 4 3 2 1 1 2 _ rfl rfl rfl rfl rfl (.value "2" [] 2 rfl)))
      (.cons ((C142_named exNum exFiles "soft").1 rfl) .nil))⟩

example : parseRock exNum ["ti", "4", "3", "density", "2"] = none := rfl

variable [IsStrictOrderedRing K]

omit [LinearOrder K] [IsStrictOrderedRing K] in
theorem uniformLoop_aux (n : Nat) (vols : List K) (k : Nat) (s : List Nat × (Nat → K)) :
    (vols.zipIdx k).foldl (fun (s : List Nat × (Nat → K)) c => (s.1 ++ [c.2 % n], fun j => if j = c.2 % n then s.2 j + c.1 else s.2 j)) s =
      (s.1 ++ (List.range' k vols.length).map (· % n),
        fun j => s.2 j + (((vols.zipIdx k).filter fun c => c.2 % n = j).map Prod.fst).sum) := by
  induction vols generalizing k s with
  | nil => simp
  | cons v vols ih =>
    rw [List.zipIdx_cons, List.foldl_cons, ih]
    simp only [List.length_cons, List.range'_succ, List.map_cons, List.append_assoc, List.singleton_append, Prod.mk.injEq, true_and]
    funext j
    by_cases hj : k % n = j
    · rw [if_pos hj.symm, List.filter_cons_of_pos (by simpa using hj), List.map_cons, List.sum_cons, add_assoc]
    · rw [if_neg (Ne.symm hj), List.filter_cons_of_neg (by simpa using hj)]

omit [LinearOrder K] [IsStrictOrderedRing K] in
theorem uniformLoop_spec (n : Nat) (vols : List K) :
    uniformLoop n vols = ((List.range vols.length).map (· % n), fun j => share n j vols) := by
  unfold uniformLoop
  rw [uniformLoop_aux, List.range_eq_range']
  simp [share]

omit [LinearOrder K] [IsStrictOrderedRing K] in
theorem share_sum (n : Nat) (hn : 0 < n) (vols : List K) (k : Nat) :
    ((List.range n).map fun j => (((vols.zipIdx k).filter fun c => c.2 % n = j).map Prod.fst).sum).sum = vols.sum := by
  induction vols generalizing k with
  | nil => simp
  | cons v vols ih =>
    have hs : ∀ j, (((v :: vols).zipIdx k).filter fun c => c.2 % n = j).map Prod.fst =
        (if k % n = j then [v] else []) ++ ((vols.zipIdx (k + 1)).filter fun c => c.2 % n = j).map Prod.fst := by
      intro j
      rw [List.zipIdx_cons]
      by_cases hj : k % n = j
      · rw [if_pos hj, List.filter_cons_of_pos (by simpa using hj)]; rfl
      · rw [if_neg hj, List.filter_cons_of_neg (by simpa using hj)]; rfl
    have h1 : ((List.range n).map fun j => (if k % n = j then [v] else [] : List K).sum).sum = v := by
      have : ∀ j, (if k % n = j then [v] else [] : List K).sum = if j = k % n then v else 0 := by
        intro j
        by_cases hj : k % n = j
        · rw [if_pos hj, if_pos hj.symm, List.sum_singleton]
        · rw [if_neg hj, if_neg (Ne.symm hj), List.sum_nil]
      simp only [this]
      rw [List.sum_map_ite_eq]
      simp [List.count_eq_one_of_mem List.nodup_range (List.mem_range.mpr (Nat.mod_lt k hn))]
    rw [List.sum_cons, ← ih (k + 1)]
    conv_rhs => rw [← h1]
    rw [← List.sum_map_add]
    congr 1
    refine List.map_congr_left fun j _ => ?_
    rw [hs, List.sum_append]

/-- C142: with `uniform` the rocks take turns cell by cell, each rock's volume fraction is its share of the total volume, and the
fractions sum to one. -/
theorem C142_uniform (n : Nat) (hn : 0 < n) (vols : List K) (hv : vols.sum ≠ 0) :
    ∃ mats fr, uniform n vols = .ok (mats, fr) ∧ mats = (List.range vols.length).map (· % n) ∧ fr.length = n ∧ fr.sum = 1 ∧
      ∀ (j : Nat) (f : K), fr[j]? = some f → f * vols.sum = share n j vols := by
  by_cases h1 : n = 1
  · subst h1
    refine ⟨vols.map fun _ => 0, [1], ?_, ?_, rfl, List.sum_singleton, ?_⟩
    · simp [uniform, divAll, Out.bind]
    · rw [List.eq_replicate_of_mem (a := 0) (l := vols.map fun _ => 0) (by simp),
        List.eq_replicate_of_mem (a := 0) (l := (List.range vols.length).map (· % 1)) (by simp [Nat.mod_one])]
      simp
    · intro j f h
      cases j with
      | zero =>
        cases h
        rw [one_mul, share]
        simp [Nat.mod_one]
      | succ j => cases h
  · have hs : ((List.range n).map fun j => share n j vols).sum = vols.sum := share_sum n hn vols 0
    refine ⟨(List.range vols.length).map (· % n), ((List.range n).map fun j => share n j vols).map fun x => x / vols.sum, ?_, rfl, by simp,
      ?_, ?_⟩
    · unfold uniform
      rw [if_neg h1, if_neg hn.ne', uniformLoop_spec]
      simp only [divAll, hs, if_neg hv, Out.bind]
    · rw [sum_div_list, hs, div_self hv]
    · intro j f h
      rw [List.getElem?_map, List.getElem?_map, Option.map_map] at h
      obtain ⟨i, hi, rfl⟩ := Option.map_eq_some_iff.mp h
      have : j = i := by
        rw [List.getElem?_eq_some_iff] at hi
        obtain ⟨_, hi⟩ := hi
        rw [List.getElem_range] at hi
        exact hi
      subst this
      exact div_mul_cancel₀ _ hv

omit [IsStrictOrderedRing K] in
/-- Without rocks, the remainder modulo zero is undefined. -/
theorem C142_violated_no_rocks (v : K) (vols : List K) : uniform 0 (v :: vols) = .ub := by
  simp [uniform]

example : (match uniform 2 [(1 : ℚ), 2, 3] with
    | .ok (m, f) => m == [0, 1, 0] && f == [2 / 3, 1 / 3]
    | _ => false) = true := by decide +kernel

omit [IsStrictOrderedRing K] in
/-- C142: the parameters reported by materials of one to six parameters are those they were made of, missing ones filled in, and they
make a material of the same constitutive matrices that reports the same parameters. -/
theorem C142_rebuild (params : List K) (m : Material K) (hl : params.length ≤ 6) (h : create params = some m) :
    ∃ m', create (reported m) = some m' ∧ reported m' = reported m ∧ ∀ inv C, m'.constitutive inv C = m.constitutive inv C := by
  have key : ∀ a b c d e f : K, ∃ m', create (reported (mkOrthoD a b c d e f)) = some m' ∧ m' = mkOrthoD a b c d e f := by
    intro a b c d e f
    obtain ⟨e4, h4⟩ : ∃ e4, e4 = if e > 0 then e else d := ⟨_, rfl⟩
    obtain ⟨e5, h5⟩ : ∃ e5, e5 = if f > 0 then f else e4 := ⟨_, rfl⟩
    have hm : ∀ e f, mkOrthoD a b c d e f = .orthoD ![a, b, c, d, if e > 0 then e else d, if f > 0 then f else if e > 0 then e else d] := by
      intro e f
      unfold mkOrthoD
      dsimp only
      congr 1
      funext i
      fin_cases i <;> rfl
    have hr : reported (mkOrthoD a b c d e f) = [a, b, c, d, e4, e5] := by
      rw [hm, ← h4, ← h5]
      rfl
    refine ⟨mkOrthoD a b c d e4 e5, ?_, ?_⟩
    · rw [hr]
      rfl
    · rw [hm, hm, ← h4, ← h5]
      have g4 : (if e4 > 0 then e4 else d) = e4 := by
        by_cases hp : e4 > 0
        · rw [if_pos hp]
        · rw [if_neg hp, h4, if_neg]
          intro he
          rw [h4, if_pos he] at hp
          exact hp he
      have g5 : (if e5 > 0 then e5 else e4) = e5 := by
        by_cases hp : e5 > 0
        · rw [if_pos hp]
        · rw [if_neg hp, h5, if_neg]
          intro he
          rw [h5, if_pos he] at hp
          exact hp he
      rw [g4, g5]
  match params, hl, h with
  | [a], _, h => cases h; exact ⟨_, rfl, rfl, fun _ _ => rfl⟩
  | [a, b], _, h => cases h; exact ⟨_, rfl, rfl, fun _ _ => rfl⟩
  | [a, b, c], _, h => cases h; exact ⟨_, rfl, rfl, fun _ _ => rfl⟩
  | [a, b, c, d], _, h =>
    cases h
    obtain ⟨m', h1, rfl⟩ := key a b c d (-1) (-1)
    exact ⟨_, h1, rfl, fun _ _ => rfl⟩
  | [a, b, c, d, e], _, h =>
    cases h
    obtain ⟨m', h1, rfl⟩ := key a b c d e (-1)
    exact ⟨_, h1, rfl, fun _ _ => rfl⟩
  | [a, b, c, d, e, f], _, h =>
    cases h
    obtain ⟨m', h1, rfl⟩ := key a b c d e f
    exact ⟨_, h1, rfl, fun _ _ => rfl⟩

omit [IsStrictOrderedRing K] in
/-- C142: the values of the parameters by kind of material. -/
theorem C142_parameters (a b c d e f : K) (M : Fin 6 → Fin 6 → K) (he : 0 < e) (hf : 0 < f) :
    (∀ m, create [a, b, c] = some m → reported m = [a, b]) ∧
    (∀ m, create [a, b, c, d, e, f] = some m → reported m = [a, b, c, d, e, f]) ∧
    (∀ m, create (upper M) = some m → reported m = upper fun i j => if voigt i ≤ voigt j then M (voigt i) (voigt j) else M (voigt j) (voigt i)) := by
  refine ⟨fun m h => ?_, fun m h => ?_, fun m h => ?_⟩
  · cases h; rfl
  · cases h
    have : mkOrthoD a b c d e f = .orthoD ![a, b, c, d, e, f] := by
      unfold mkOrthoD
      dsimp only
      congr 1
      funext i
      fin_cases i <;> simp [he, hf]
    rw [this]
    rfl
  · cases h; rfl

/-- The parameters reported by a general material are not those it was made of, and made into a material again they give another
one: the shear components come back in reversed order. -/
theorem C142_violated_rebuild : ∃ (params : List ℚ) (m m' : Material ℚ), create params = some m ∧ create (reported m) = some m' ∧
    reported m ≠ params ∧ reported m' = params ∧
    m.constitutive false (fun _ _ => 0) ≠ m'.constitutive false (fun _ _ => 0) := by
  refine ⟨upper fun i j => if i = j then i.val + 1 else 0, _, _, rfl, rfl, by decide +kernel, by decide +kernel, ?_⟩
  intro h
  have := congrArg (fun x => x.map fun p => p.2 3 3) h
  revert this
  decide +kernel

omit [LinearOrder K] [IsStrictOrderedRing K] in
/-- C142: asking an orthotropic material for a parameter it does not have gives zero. -/
theorem C142_no_parameter (m : Material K) (hm : ∀ E nu rho, m ≠ .iso E nu rho) (i : Int) (hi : i < 1 ∨ (numPar m : Int) < i) : getPar m i = 0 := by
  cases m with
  | iso E nu rho => exact absurd rfl (hm E nu rho)
  | orthoD E =>
    have hi : i < 1 ∨ (6 : Int) < i := hi
    exact dif_neg (by omega)
  | sym C =>
    have hi : i < 1 ∨ (21 : Int) < i := hi
    exact if_neg (by omega)

example : getPar (.sym fun _ => (1 : ℚ)) 22 = 0 ∧ getPar (.sym fun _ => (1 : ℚ)) 21 = 1 := by decide +kernel

omit [IsStrictOrderedRing K] in
/-- C142: the text of an isotropic or diagonal material tells its number, its kind and all its parameters apart. -/
theorem C142_text (showNum : K → String) (showInt : Int → String) (hn : ∀ x y, showNum x = showNum y → x = y)
    (hi : ∀ i j, showInt i ++ ":" = showInt j ++ ":" → i = j) (id id' : Int) (m m' : Material K)
    (hm : write showNum showInt id m ≠ [])
    (h : write showNum showInt id m = write showNum showInt id' m') :
    id = id' ∧ reported m = reported m' := by
  cases m with
  | iso E nu rho =>
    cases m' with
    | iso E' nu' rho' =>
      simp only [write, List.cons.injEq, and_true, true_and] at h
      obtain ⟨h1, h2, h3⟩ := h
      rw [hi _ _ h1]
      refine ⟨rfl, ?_⟩
      simp [reported, numPar, getPar, hn _ _ h2, hn _ _ h3]
    | orthoD E' =>
      simp only [write, List.cons_append, List.cons.injEq] at h
      exact absurd h.1 (by decide)
    | sym C' => simp [write] at h
  | orthoD E =>
    cases m' with
    | iso E' nu' rho' =>
      simp only [write, List.cons_append, List.cons.injEq] at h
      exact absurd h.1 (by decide)
    | orthoD E' =>
      simp only [write, List.cons_append, List.cons.injEq, List.nil_append, true_and] at h
      obtain ⟨h1, h2, h3, h4, h5⟩ := h
      have key : E 3 = E' 3 ∧ E 4 = E' 4 ∧ E 5 = E' 5 := by
        by_cases c : E 4 = E 3 ∧ E 5 = E 3 <;> by_cases c' : E' 4 = E' 3 ∧ E' 5 = E' 3
        · rw [if_pos c, if_pos c'] at h5
          simp only [List.cons.injEq, and_true, true_and] at h5
          have := hn _ _ h5
          exact ⟨this, by rw [c.1, c'.1, this], by rw [c.2, c'.2, this]⟩
        · rw [if_pos c, if_neg c'] at h5
          simp at h5
        · rw [if_neg c, if_pos c'] at h5
          simp at h5
        · rw [if_neg c, if_neg c'] at h5
          simp only [List.cons.injEq, and_true, true_and] at h5
          exact ⟨hn _ _ h5.1, hn _ _ h5.2.1, hn _ _ h5.2.2⟩
      rw [hi _ _ h1]
      refine ⟨rfl, ?_⟩
      have hE : E = E' := by
        funext i
        fin_cases i
        · exact hn _ _ h2
        · exact hn _ _ h3
        · exact hn _ _ h4
        · exact key.1
        · exact key.2.1
        · exact key.2.2
      rw [hE]
    | sym C' => simp [write] at h
  | sym C => exact absurd rfl hm

/-- Numbers written with as many strokes as their code says: there are texts from which numbers can be read back. -/
def exShow {α : Type} [Encodable α] (x : α) : String := String.ofList (List.replicate (Encodable.encode x) 'I')

theorem exShow_inj {α : Type} [Encodable α] (x y : α) (h : exShow x = exShow y) : x = y := by
  have := congrArg List.length (String.ofList_injective h)
  simp only [List.length_replicate] at this
  exact Encodable.encode_injective this

example : (∀ x y : ℚ, exShow x = exShow y → x = y) ∧ (∀ i j : Int, exShow i ++ ":" = exShow j ++ ":" → i = j) ∧
    write (K := ℚ) exShow exShow 1 (.iso 2 0 0) ≠ [] :=
  ⟨exShow_inj, fun i j h => exShow_inj i j (by
    have := congrArg String.toList h
    rw [String.toList_append, String.toList_append] at this
    exact String.toList_injective (List.append_cancel_right this)), by simp [write]⟩

/-- The text of every general material is empty. -/
theorem C142_violated_text (showNum : K → String) (showInt : Int → String) (id : Int) (params : List K) (m : Material K)
    (hl : params.length = 9 ∨ params.length = 21) (h : create params = some m) : write showNum showInt id m = [] := by
  unfold create at h
  split at h <;> first | (rcases hl with hl | hl <;> simp at hl; done) | skip
  · cases h; rfl
  · split at h
    · cases h; rfl
    · cases h

end Verif.RockFiles
