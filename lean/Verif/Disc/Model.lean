import Verif.NumInt.Model
import Verif.Ld.Model
/-!
# Model of `cpp-disc-integrator/disc_integrator/disc_integrals.cpp`

Scalars are uninterpreted with a decidable `≤`.  `none` = undefined behaviour.
-/
namespace Verif.Disc
variable {α : Type} [Add α] [Sub α] [Mul α] [Div α] [NatCast α] [LE α] [DecidableLE α]

/-- The four vectors built by the constructor: `mymus_b, myang_b, firstder_b, secondder_b`. -/
structure Vecs (α : Type) where
  mymus_b : List α
  myang_b : List α
  firstder_b : List α
  secondder_b : List α

/-- `adjust_data_to_integration_length()`, disc_integrals.cpp:51-62. -/
def adjust (origsize : Int) (mus ang d1 d2 : List α) : Option (Vecs α) :=
  forUp 0 origsize ⟨[], [], [], []⟩ (fun i v => do
    let m ← rd mus i
    if ((0 : Nat) : α) ≤ m ∧ m ≤ ((1 : Nat) : α) then
      let a ← rd ang i
      let f ← rd d1 i
      let s ← rd d2 i
      pure ⟨v.mymus_b ++ [m], v.myang_b ++ [a], v.firstder_b ++ [f], v.secondder_b ++ [s]⟩
    else pure v)

/-- Iteration orders of the parallel loops of one object's life: the two limb-darkening passes and the
two integrand loops. -/
structure Orders where
  ld1 : List Nat
  ld2 : List Nat
  first : List Nat
  second : List Nat

/-- `compute_ld_function`, disc_integrals.cpp:67-74 with the resize at line 40: buffer 0 is
`mymus_b`, buffer 1 is `ldfunc` (zero-initialised, same length). -/
def ldVector (ldHist : List String) (lds : String) (paral : Bool) (o : Orders) (mus : List α) :
    Option (List α) := do
  let h ← Ld.ldCompute (Ld.mapperAfter ldHist) lds paral o.ld1 o.ld2 0 1
    (fun r => if r = 0 then mus else List.replicate mus.length ((0 : Nat) : α))
  pure (h 1)

/-- `vector<double> v(vecsize); for j: v[j] = g(j)`: loops at disc_integrals.cpp:105-109, 119-125,
147-154 and 164-173; the order is `0,1,…` in the serial versions and `order` in the parallel ones. -/
def fill (vecsize : Nat) (paral : Bool) (order : List Nat) (g : Nat → Option α) : Option (List α) :=
  (if paral then order else List.range vecsize).foldlM
    (fun b j => do let v ← g j; wr b (j : Int) v) (List.replicate vecsize ((0 : Nat) : α))

/-- First integrand, disc_integrals.cpp:108 and 124. -/
def firstIntegrand (v : Vecs α) (ld : List α) (j : Nat) : Option α := do
  let m ← rd v.mymus_b j
  let a ← rd v.myang_b j
  let l ← rd ld j
  pure (m * a * l)

/-- Second integrand, disc_integrals.cpp:150-153 and 169-172 (`pow(mmu, 2.0)` as `mmu * mmu`). -/
def secondIntegrand (v : Vecs α) (ld : List α) (j : Nat) : Option α := do
  let m ← rd v.mymus_b j
  let f ← rd v.firstder_b j
  let s ← rd v.secondder_b j
  let l ← rd ld j
  pure ((((((2 : Nat) : α) * m) * f) + ((m * m - ((1 : Nat) : α)) * s)) * l * m)

/-- `perform_integration`, disc_integrals.cpp:79-86: the equal-spacing flag is always `true`. -/
def performIntegration (niHist : List String) (integration_string : String) (threads : Int)
    (paral : Bool) (v : Vecs α) (integrand : List α) : Option α :=
  NumInt.integrate (NumInt.mk (NumInt.mapperAfter niHist) v.mymus_b.length integrand v.mymus_b true
    integration_string threads paral).1

/-- `get_integrals(mus, angular_function, first_mu_der, second_mu_der, ld, integration, threads,
paral)`, libcpp_disc_integration.pyx:13-47 with the constructor disc_integrals.cpp:18-45 and the two
`compute_*_disc_integral` methods.  `ldHist`, `niHist`: earlier strings seen by the global maps. -/
def getIntegrals (ldHist niHist : List String) (o : Orders) (mus ang d1 d2 : List α)
    (lds ints : String) (threads : Int) (paral : Bool) : Option (α × α) := do
  let v ← adjust mus.length mus ang d1 d2
  let ld ← ldVector ldHist lds paral o v.mymus_b
  let f1 ← fill v.mymus_b.length paral o.first (firstIntegrand v ld)
  let r1 ← performIntegration niHist ints threads paral v f1
  let f2 ← fill v.mymus_b.length paral o.second (secondIntegrand v ld)
  let r2 ← performIntegration niHist ints threads paral v f2
  pure (r1, r2)

end Verif.Disc
