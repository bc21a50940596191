import Verif.Disc.Model
/-! Specification vocabulary for the disc integrals: samples `(μ, f, f', f'')`. -/
namespace Verif.Disc.Spec

/-- A sample: (μ, f, f', f''). -/
abbrev Sample (α : Type) := α × α × α × α

/-- The samples with `0 ≤ μ ≤ 1`, in order. -/
def visible {α : Type} [NatCast α] [LE α] [DecidableLE α] (l : List (Sample α)) : List (Sample α) :=
  l.filter (fun s => ((0 : Nat) : α) ≤ s.1 ∧ s.1 ≤ ((1 : Nat) : α))

/-- The four arrays handed to `get_integrals` that hold the samples `l`. -/
def call {α : Type} [Add α] [Sub α] [Mul α] [Div α] [NatCast α] [LE α] [DecidableLE α]
    (ldHist niHist : List String) (o : Orders) (l : List (Sample α))
    (lds ints : String) (threads : Int) (paral : Bool) : Option (α × α) :=
  getIntegrals ldHist niHist o (l.map (fun s => s.1)) (l.map (fun s => s.2.1))
    (l.map (fun s => s.2.2.1)) (l.map (fun s => s.2.2.2)) lds ints threads paral

/-- The iteration orders are permutations of `0 … n-1`. -/
def Orders.Valid (o : Orders) (n : Nat) : Prop :=
  o.ld1.Perm (List.range n) ∧ o.ld2.Perm (List.range n) ∧ o.first.Perm (List.range n) ∧
    o.second.Perm (List.range n)

end Verif.Disc.Spec
