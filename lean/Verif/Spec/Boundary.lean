import Verif.Model.Boundary

/-!
Specification vocabulary for boundary conditions.
-/

namespace Verif.Boundary

variable {K : Type} [Field K] [LinearOrder K]

/-- Face `f` on side `s` and face `g` on side `t` of a box are periodic images of each other: `s` and `t` are the
two different sides of one direction, the areas agree within 1e-6 and the centroids agree within 1e-6 in the
(Euclidean norm of the) tangential coordinates. -/
def PeriodicImage (s : Nat) (f : Face K) (t : Nat) (g : Face K) : Prop :=
  s / 2 = t / 2 ∧ s ≠ t ∧ |f.area - g.area| ≤ 1 / 10 ^ 6 ∧
    ∑ d : Fin 3, (if d.val = s / 2 then 0 else (f.centroid d - g.centroid d) ^ 2) ≤ (1 / 10 ^ 6) ^ 2

/-- The face info list `r` gives face number `k` the partner number `k'`. -/
def PartnerOf (r : List (BFI K)) (k k' : Nat) : Prop := ∃ b ∈ r, b.faceIndex = k ∧ b.partnerFace = some k'

/-- The boundary faces of a grid (id 0 marks an interior face), in grid order. -/
def outerFaces (faces : List (Face K)) : List (Face K) := faces.filter (fun f => f.bid ≠ 0)

/-- `lo` and `hi` are the least and the greatest centroid coordinates of the faces. The coordinates are below 1e100
in magnitude. -/
structure Extents (bf : List (Face K)) (lo hi : Fin 3 → K) : Prop where
  lo_mem : ∀ d, ∃ f ∈ bf, f.centroid d = lo d
  hi_mem : ∀ d, ∃ f ∈ bf, f.centroid d = hi d
  bounds : ∀ f ∈ bf, ∀ d, lo d ≤ f.centroid d ∧ f.centroid d ≤ hi d
  sentinel : ∀ d, |lo d| ≤ 10 ^ 100 ∧ |hi d| ≤ 10 ^ 100

/-- The point `c` is at side `s` of the box `[lo, hi]`: side `2*d` is the low end of direction `d`, side `2*d+1` the
high end, "at" means within `tol`, and the first side in the order xmin, xmax, ymin, ymax, zmin, zmax counts. -/
def AtSide (tol : K) (lo hi c : Fin 3 → K) (s : Nat) : Prop :=
  ∃ d : Fin 3, ((s = 2 * d.val ∧ |c d - lo d| ≤ tol) ∨
      (s = 2 * d.val + 1 ∧ |c d - hi d| ≤ tol ∧ tol < |c d - lo d|)) ∧
    ∀ e < d, tol < |c e - lo e| ∧ tol < |c e - hi e|

/-- A box grid: every boundary face has its centroid at one of the sides of the bounding box of the centroids,
namely at side `side f`. -/
def OnBox (tol : K) (bf : List (Face K)) (side : Face K → Nat) : Prop :=
  bf = [] ∨ ∃ lo hi, Extents bf lo hi ∧ ∀ f ∈ bf, AtSide tol lo hi f.centroid (side f)

/-- Boundary ids are distinct and none exceeds the number of boundary faces. -/
def UniqueIds (bf : List (Face K)) : Prop := (bf.map (·.bid)).Nodup ∧ ∀ f ∈ bf, f.bid ≤ bf.length

end Verif.Boundary

namespace Verif.Boundary

/-- A history in which the table never shrinks (except through `clear`) and only real boundary ids (`≥ 1`; id 0
means "interior face") are registered as partners. -/
def Allowed (h : Handler) : List Handler.Op → Prop
  | [] => True
  | op :: ops => (match op with
      | .resize n => h.partner.length ≤ n
      | .setPartners a b => 1 ≤ a ∧ 1 ≤ b
      | _ => True) ∧ Allowed (h.step op) ops

end Verif.Boundary

namespace Verif.Boundary

variable {K : Type} [Field K] [LinearOrder K]

/-- No boundary face has two different periodic images. -/
def SingleImage (bf : List (Face K)) (side : Face K → Nat) : Prop :=
  ∀ f ∈ bf, ∀ g ∈ bf, ∀ h ∈ bf, PeriodicImage (side f) f (side g) g → PeriodicImage (side f) f (side h) h →
    g.bid = h.bid

/-- The periodicity flags agree on opposite sides. -/
def FlagsAgree (per : Nat → Bool) : Prop := per 0 = per 1 ∧ per 2 = per 3 ∧ per 4 = per 5

end Verif.Boundary

namespace Verif.Boundary

variable {K : Type} [Field K] [LinearOrder K]

instance (s t : Nat) (f g : Face K) : Decidable (PeriodicImage s f t g) := by
  unfold PeriodicImage; infer_instance

/-- Side conditions that make sense: a direction is periodic on both sides or on none; in a periodic direction the
flow jumps are opposite and the saturation condition is periodic without jump. -/
def ValidConds (fc sc : Nat → BC K) : Prop :=
  ∀ i < 3, ((fc (2 * i)).type = .periodic ↔ (fc (2 * i + 1)).type = .periodic) ∧
    ((fc (2 * i)).type = .periodic → (fc (2 * i)).value = -(fc (2 * i + 1)).value ∧
      sc (2 * i) = ⟨.periodic, 0⟩ ∧ sc (2 * i + 1) = ⟨.periodic, 0⟩)

instance [DecidableEq K] (fc sc : Nat → BC K) : Decidable (ValidConds fc sc) := by
  unfold ValidConds; infer_instance

/-- Total area of the boundary faces on side `s`. -/
def totalArea (bf : List (Face K)) (side : Face K → Nat) (s : Nat) : K :=
  ((bf.filter (fun f => side f = s)).map (·.area)).sum

/-- The value stored in a condition table for id `i` (0 if there is none). -/
def flowValue (b : BCs K) (i : Nat) : K := ((b.flow[i]?).map (·.value)).getD 0

end Verif.Boundary
