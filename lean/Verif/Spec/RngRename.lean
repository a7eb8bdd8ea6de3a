/-
Vocabulary for C147: a program in which other generators are used in the same roles, e.g. a `RandomState` object wherever the program used numpy's global
generator.
-/
import Verif.Model.Rng

namespace Skada.Spec

open Skada.Rng

variable {γ R : Type}

/-- The shared generator a `random_state` names, if any: the global one (`none`) or object number `k`. -/
def seedShared : Seed → Option (Option Nat)
  | .none => some none
  | .inst k => some (some k)
  | .int _ | .other => none

/-- The same `random_state` with the shared generators exchanged by `ρ`. -/
def renSeed (ρ : Option Nat → Option Nat) (s : Seed) : Seed :=
  match (seedShared s).map ρ with
  | none => s
  | some none => .none
  | some (some k) => .inst k

/-- The same call with the shared generators exchanged.  The dataset generators do not use shared generators (`None` is the entropy of the operating system
there, an object is a `TypeError`), so they keep their argument. -/
def renCall (ρ : Option Nat → Option Nat) : Call γ R → Call γ R
  | .dev s n k => .dev (renSeed ρ s) n k
  | .mixval s n k => .mixval (renSeed ρ s) n k
  | .subsample s n keep k => .subsample (renSeed ρ s) n keep k
  | .domainSubsample s n keep a m => .domainSubsample (renSeed ρ s) n keep a m
  | .stratSubsample s X y sd keep k => .stratSubsample (renSeed ρ s) X y sd keep k
  | .subspace s a b k => .subspace (renSeed ρ s) a b k
  | .kliep s a best k => .kliep (renSeed ρ s) a best k
  | .shuffleArrays s n k => .shuffleArrays (renSeed ρ s) n k
  | .generate s m => .generate s m
  | .blobs s m e k => .blobs s m e k

/-- The same operation with the shared generators exchanged. -/
def renOp (ρ : Option Nat → Option Nat) : Op γ R → Op γ R
  | .draw k q => .draw (ρ k) q
  | .reseed k s => .reseed (ρ k) s
  | .split n c => .split n { c with seed := renSeed ρ c.seed }
  | .next n => .next n
  | .call c => .call (renCall ρ c)

/-- The `random_state` of a call that may be a shared generator. -/
def callSeed : Call γ R → Option Seed
  | .dev s _ _ | .mixval s _ _ | .subsample s _ _ _ | .domainSubsample s _ _ _ _ | .stratSubsample s _ _ _ _ _ | .subspace s _ _ _
  | .kliep s _ _ _ | .shuffleArrays s _ _ => some s
  | .generate _ _ | .blobs _ _ _ _ => none

/-- The shared generators an operation names. -/
def opShared : Op γ R → Option (Option Nat)
  | .draw k _ | .reseed k _ => some k
  | .split _ c => seedShared c.seed
  | .next _ => none
  | .call c => (callSeed c).bind seedShared

/-- `make_shifted_blobs(random_state=None)`, the one call that takes from the global generator although it makes a generator of its own. -/
def isBlobsNone : Op γ R → Bool
  | .call (.blobs .none _ _ _) => true
  | _ => false

/-- The state of a shared generator. -/
def shared (w : World γ) : Option Nat → γ
  | none => w.glob
  | some k => w.insts k

end Skada.Spec
