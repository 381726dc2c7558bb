import Verif.Model.RockFiles
import Mathlib.Algebra.BigOperators.Group.List.Basic

/-!
What a rock file means, independently of how it is read.
-/

namespace Verif.RockFiles.Spec

open Verif.Elastic

variable {K : Type}

/-- The end of a rock file: the word `density` and its value, zero if there is none. -/
inductive Ends [Zero K] (num : String → Option K) : List String → K → Prop
  | value (w : String) (l : List String) (rho : K) (h : num w = some rho) : Ends num ("density" :: w :: l) rho
  | noNumber (w : String) (l : List String) (h : num w = none) : Ends num ("density" :: w :: l) 0
  | nothing : Ends num ["density"] 0

/-- The meaning of the words of a rock file: a keyword, its numbers, the density. -/
inductive Describes [Zero K] (num : String → Option K) : List String → RockFile K → Prop
  | ti (wa wb wc wd we : String) (a b c d e rho : K) (l : List String) (ha : num wa = some a) (hb : num wb = some b)
      (hc : num wc = some c) (hd : num wd = some d) (he : num we = some e) (hl : Ends num l rho) :
      Describes num ("ti" :: wa :: wb :: wc :: wd :: we :: l) (.ti a b c d e rho)
  | anisotropic (ws : List String) (cs : List K) (rho : K) (l : List String) (hn : ws.length = 21)
      (hw : ws.map num = cs.map some) (hl : Ends num l rho) :
      Describes num ("anisotropic" :: ws ++ l) (.anisotropic cs rho)
  | vpvs (wa wb : String) (a b rho : K) (l : List String) (ha : num wa = some a) (hb : num wb = some b) (hl : Ends num l rho) :
      Describes num ("vpvs" :: wa :: wb :: l) (.vpvs a b rho)
  | km (wa wb : String) (a b rho : K) (l : List String) (ha : num wa = some a) (hb : num wb = some b) (hl : Ends num l rho) :
      Describes num ("km" :: wa :: wb :: l) (.km a b rho)
  | lm (wa wb : String) (a b rho : K) (l : List String) (ha : num wa = some a) (hb : num wb = some b) (hl : Ends num l rho) :
      Describes num ("lm" :: wa :: wb :: l) (.lm a b rho)
  | en (wa wb : String) (a b rho : K) (l : List String) (ha : num wa = some a) (hb : num wb = some b) (hl : Ends num l rho) :
      Describes num ("en" :: wa :: wb :: l) (.en a b rho)

/-- All parameters a material reports, from the first to the last. -/
def reported [Field K] [LinearOrder K] (m : Material K) : List K := (List.range (numPar m)).map fun i => getPar m (i + 1)

/-- The volume of the cells with rock `j`, rocks taking turns: cell number `i` has rock `i` modulo `n`. -/
def share [Zero K] [Add K] (n j : Nat) (vols : List K) : K := ((vols.zipIdx.filter fun c => c.2 % n = j).map Prod.fst).sum

end Verif.RockFiles.Spec
