import Verif.Model.PressureCalls

/-!
What the settings of an upscaler are after a sequence of calls, read off the sequence.
-/

namespace Verif.Calls.Spec

variable {G T S K : Type}

/-- The settings that a user has given. -/
structure Settings (G T K : Type) where
  grid : G
  perm : Nat → T
  bc : BC
  gravity : K
  useGravity : Bool

/-- The settings after a call, given those before: upscaling changes nothing, a change from or to periodic boundary
conditions is refused. -/
inductive Changes : Settings G T K → Call G T S K → Settings G T K → Prop
  | init (s : Settings G T K) (g : G) (n : Nat) (p : Nat → T) (bc : BC) (grav : K) (use : Bool) :
      Changes s (.init g n p bc grav use) ⟨g, p, bc, grav, use⟩
  | perm (s : Settings G T K) (c : Nat) (k : T) (p : Nat → T) : p c = k → (∀ i, i ≠ c → p i = s.perm i) →
      Changes s (.setPermeability c k) ⟨s.grid, p, s.bc, s.gravity, s.useGravity⟩
  | bc (s : Settings G T K) (b : BC) : (b = .periodic ↔ s.bc = .periodic) →
      Changes s (.setBoundaryConditionType b) ⟨s.grid, s.perm, b, s.gravity, s.useGravity⟩
  | bcRefused (s : Settings G T K) (b : BC) : ¬ (b = .periodic ↔ s.bc = .periodic) → Changes s (.setBoundaryConditionType b) s
  | singlePhase (s : Settings G T K) : Changes s .singlePhase s
  | steadyState (s : Settings G T K) (d : Nat) (x : K) (s0 s1 : S) : Changes s (.steadyState d x s0 s1) s

/-- The settings after a sequence of calls. -/
inductive After : Settings G T K → List (Call G T S K) → Settings G T K → Prop
  | nil (s : Settings G T K) : After s [] s
  | cons (s t u : Settings G T K) (c : Call G T S K) (h : List (Call G T S K)) : Changes s c t → After t h u → After s (c :: h) u

/-- The three solutions for an effective permeability: unit pressure drop in each direction, with the user's settings;
the matrix is reused where only the right hand side differs. -/
def Effective (one : K) (s : Settings G T K) (fluid : Fluid S) : List (Solve G T S K) :=
  [⟨s.grid, s.perm, s.gravity, fluid, s.bc, 0, one, false⟩,
   ⟨s.grid, s.perm, s.gravity, fluid, s.bc, 1, one, decide (s.bc = .linear ∨ s.bc = .periodic)⟩,
   ⟨s.grid, s.perm, s.gravity, fluid, s.bc, 2, one, decide (s.bc = .linear ∨ s.bc = .periodic)⟩]

/-- The solution that decides the velocity field of a steady state, with the user's settings. -/
def Velocity (zero standard : K) (s : Settings G T K) (dir : Nat) (drop : K) (initial : S) : Solve G T S K :=
  ⟨s.grid, s.perm, if s.useGravity then standard else zero, .both initial, s.bc, dir, drop, false⟩

/-- The call upscales. -/
def Upscales : Call G T S K → Prop
  | .singlePhase => True
  | .steadyState _ _ _ _ => True
  | _ => False

/-- The call changes neither grid nor permeabilities. -/
def KeepsRock : Call G T S K → Prop
  | .init _ _ _ _ _ _ => False
  | .setPermeability _ _ => False
  | _ => True

end Verif.Calls.Spec
