/- Vocabulary of C130. -/
import Verif.Model.Routing

namespace Skada
open Route

/-- An estimator may receive `k`: it is requested under this name or under an alias `k`, or nothing was said about it. -/
def Spec.Asks (req : Request) (k : String) : Prop :=
  (k, Alias.yes) ∈ req ∨ (k, Alias.unset) ∈ req ∨ (k, Alias.warn) ∈ req ∨ ∃ p, (p, Alias.name k) ∈ req

/-- The methods that evaluate a fitted estimator. -/
def Spec.Evaluates : Meth → Prop
  | .predict | .predictProba | .predictLogProba | .decisionFunction | .score => True
  | .fit | .partialFit | .transform | .fitTransform => False

/-- Every step gets all the parameters. -/
def Spec.everything {γ : Type} (l : List γ) : List ((String → Bool) × γ) := l.map (fun a => (fun _ => true, a))

end Skada
