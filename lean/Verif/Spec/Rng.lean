/-
Vocabulary for C147: where the random numbers of an operation come from, read off its `random_state` alone, and when two situations agree about some of
these places.
-/
import Verif.Model.Rng

namespace Skada.Spec

open Skada.Rng

/-- The places random numbers come from: numpy's global generator, the `RandomState` object number `k`, the entropy of the operating system. -/
inductive Chan where
  | glob | inst (k : Nat) | os
  deriving DecidableEq

/-- `check_random_state(random_state)`: an integer uses none of them. -/
def seedUses : Seed → List Chan
  | .none => [.glob]
  | .inst k => [.inst k]
  | .int _ => []
  | .other => []

/-- `np.random.RandomState(random_state)` -/
def newUses : Seed → List Chan
  | .none => [.os]
  | _ => []

/-- What a call uses; `make_shifted_blobs(random_state=None)` is the only one that uses two places. -/
def callUses {γ R : Type} : Call γ R → List Chan
  | .dev s _ _ | .mixval s _ _ | .subsample s _ _ _ | .domainSubsample s _ _ _ _ | .stratSubsample s _ _ _ _ _ | .subspace s _ _ _
  | .kliep s _ _ _ | .shuffleArrays s _ _ => seedUses s
  | .generate s _ => newUses s
  | .blobs .none _ _ _ => [.glob, .os]
  | .blobs _ _ _ _ => []

/-- What an operation uses; `ch` says what the generator objects of the program use, by name. -/
def opUses {γ R : Type} (ch : Nat → List Chan) : Op γ R → List Chan
  | .draw none _ | .reseed none _ => [.glob]
  | .draw (some k) _ | .reseed (some k) _ => [.inst k]
  | .split n _ | .next n => ch n
  | .call c => callUses c

/-- Every name is only bound to splits that use `ch name`. -/
def WellNamed {γ R : Type} (ch : Nat → List Chan) (ops : List (Op γ R)) : Prop :=
  ∀ n c, Op.split n c ∈ ops → seedUses c.seed = ch n

/-- The operation uses only places in `C`.  With an integer `random_state` this holds whatever `C` is. -/
def inside {γ R : Type} (ch : Nat → List Chan) (C : Chan → Bool) (o : Op γ R) : Bool := (opUses ch o).all C

/-- The operation uses no place in `C`. -/
def outside {γ R : Type} (ch : Nat → List Chan) (C : Chan → Bool) (o : Op γ R) : Bool := (opUses ch o).all (fun c => !C c)

/-- Two situations agree at a place. -/
def SameAt {γ : Type} (w w' : World γ) : Chan → Prop
  | .glob => w.glob = w'.glob
  | .inst k => w.insts k = w'.insts k
  | .os => w.made = w'.made

/-- No generator objects yet. -/
def NoIters {γ : Type} (w : World γ) : Prop := ∀ n, w.its n = none

/-- What the user sees of the operations that are inside `C`, in order. -/
def seen {γ R : Type} (ch : Nat → List Chan) (C : Chan → Bool) (ops : List (Op γ R)) (obs : List (Obs R)) : List (Obs R) :=
  ((ops.zip obs).filter (fun p => inside ch C p.1)).map Prod.snd

/-- `k` pairs of permutations of `a` and `b` positions drawn one after the other. -/
def pairs {γ : Type} (np : Numpy γ) (a b : Nat) : Nat → γ → List (List Nat × List Nat)
  | 0, _ => []
  | k + 1, g =>
    let r := np.ask (.perm a) g
    let s := np.ask (.perm b) r.2
    (r.1, s.1) :: pairs np a b k s.2

end Skada.Spec
