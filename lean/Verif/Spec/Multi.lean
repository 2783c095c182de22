import Verif.Model.Multi

/-
Specification of a network for several frameworks: every framework has a network of its own.
-/

namespace Verif.Spec

open Verif.Multi

/-- The requests of a history of calls that concern the framework `f`: those for it and those for all. -/
def requests {ι : Type} (f : Framework) : List (Call ι) → List ι
  | [] => []
  | .one g i :: cs => if g = f then i :: requests f cs else requests f cs
  | .all i :: cs => i :: requests f cs

/-- A network that is used on its own: its state after the requests, and what each of them returned or threw. -/
def alone {σ ι ρ : Type} (serve : ι → σ → Exec (σ × Except String ρ)) :
    List ι → σ → Exec (σ × List (Except String ρ))
  | [], s => .ok (s, [])
  | i :: is, s => do
    let r ← serve i s
    let q ← alone serve is r.1
    .ok (q.1, r.2 :: q.2)

/-- What the framework `f` contributes to the results of a history of calls. -/
def answers {ι ρ : Type} (f : Framework) : List (Call ι) → List (Except String (List (Framework × ρ))) → List (Except String ρ)
  | .one g _ :: cs, r :: rs =>
    if g = f then
      (match r with
        | .ok l => (l.filter (·.1 = f)).map fun e => .ok e.2
        | .error m => [.error m]) ++ answers f cs rs
    else answers f cs rs
  | .all _ :: cs, r :: rs =>
    (match r with
      | .ok l => (l.filter (·.1 = f)).map fun e => .ok e.2
      | .error m => [.error m]) ++ answers f cs rs
  | _, _ => []

/-- No call for all frameworks has thrown. -/
def AllServed {ι ρ : Type} (cs : List (Call ι)) (rs : List (Except String (List (Framework × ρ)))) : Prop :=
  ∀ i r, (Call.all i, r) ∈ cs.zip rs → ∃ l, r = .ok l

/-- The requests that reach mlpack, if the network of the repository, which is called first, is in the state `s`:
those for mlpack, and those for all frameworks in which the network of the repository does not throw. -/
def arriving {σ ι ρ : Type} (first : ι → σ → Exec (σ × Except String ρ)) : List (Call ι) → σ → Exec (List ι)
  | [], _ => .ok []
  | .one .mlpack i :: cs, s => do
    let l ← arriving first cs s
    .ok (i :: l)
  | .one .edgeLearning i :: cs, s => do
    let r ← first i s
    arriving first cs r.1
  | .all i :: cs, s => do
    let r ← first i s
    let l ← arriving first cs r.1
    match r.2 with
    | .ok _ => .ok (i :: l)
    | .error _ => .ok l

/-- The statement of C105: after every history of calls, the network of every framework is in the state it would have if
it alone had got its calls. -/
def EachAlone {σ ι ρ : Type} (serve : Serve σ ι ρ) (made : Framework → σ) (enabled : Bool) : Prop :=
  ∀ (cs : List (Call ι)) m rs, calls serve cs (Multi.new enabled made) = .ok (m, rs) →
    ∀ f : Framework, f = .edgeLearning ∨ enabled = true →
      ∃ s as, alone (serve f) (requests f cs) (made f) = .ok (s, as) ∧ Multi.get m f = .ok s

end Verif.Spec
