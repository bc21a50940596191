import Verif.Common
/-!
# Model of `cpp-numintegrator/num_integrator/num_integration.cpp`

Scalars are an arbitrary type with uninterpreted `+ - * /` and numerals (`NatCast`): theorems that do
not assume laws hold for IEEE doubles.
-/
namespace Verif.NumInt
variable {α : Type} [Add α] [Sub α] [Mul α] [Div α] [NatCast α]

/-- `enum IntegrationOptions { trapz, simpson }`, num_integration.cpp:14-17 (values 0 and 1). -/
def optTrapz : Nat := 0
/-- See `optTrapz`. -/
def optSimpson : Nat := 1

/-- The process-wide `unordered_map<string, IntegrationOptions> my_integration_mapper`,
num_integration.cpp:20-23, as an association list (keys are unique, so order is irrelevant). -/
abbrev Mapper := List (String × Nat)

/-- Initial contents of the map, num_integration.cpp:20-23. -/
def mapper0 : Mapper := [("trapz", optTrapz), ("simpson", optSimpson)]

/-- `my_integration_mapper[s]`, num_integration.cpp:51: `operator[]` *inserts* a value-initialised
(0) entry when the key is absent.  Returns the value and the map after the call. -/
def mapperIndex (m : Mapper) (s : String) : Nat × Mapper :=
  match m.lookup s with
  | some v => (v, m)
  | none => (0, (s, 0) :: m)

/-- Attributes of `NumericalDoubleInputIntegrator`, num_integration.h (private section). -/
structure Integrator (α : Type) where
  paral : Bool
  numthreads : Int
  arr_size : Int
  my_integrand : List α
  my_var : List α
  equally_spaced : Bool
  integration_switch : Nat

/-- Constructor, num_integration.cpp:36-52.  Also returns the updated global map. -/
def mk (m : Mapper) (arrsize : Int) (integrand var : List α) (es : Bool) (s : String)
    (num_threads : Int) (para : Bool) : Integrator α × Mapper :=
  let r := mapperIndex m s
  ({ paral := para, numthreads := num_threads, arr_size := arrsize, my_integrand := integrand,
     my_var := var, equally_spaced := es, integration_switch := r.1 }, r.2)

/-- `trapz()`, num_integration.cpp:58-83. -/
def trapz (o : Integrator α) : Option α :=
  if o.equally_spaced then do
    let v1 ← rd o.my_var 1
    let v0 ← rd o.my_var 0
    let increment := v1 - v0
    let f0 ← rd o.my_integrand 0
    let fn ← rd o.my_integrand (o.arr_size - 1)
    let sum_result := (f0 + fn) / ((2 : Nat) : α)
    let sum_result ← forUp 1 (o.arr_size - 1) sum_result
      (fun i acc => do let fi ← rd o.my_integrand i; pure (acc + fi))
    pure (sum_result * increment)
  else
    forUp 1 o.arr_size ((0 : Nat) : α)
      (fun i acc => do
        let xi ← rd o.my_var i
        let xp ← rd o.my_var (i - 1)
        let local_increment := xi - xp
        let fi ← rd o.my_integrand i
        let fp ← rd o.my_integrand (i - 1)
        let local_integrand_sum := (fi + fp) / ((2 : Nat) : α)
        pure (acc + local_integrand_sum * local_increment))

/-- `simpson()`, num_integration.cpp:126-153.  `Int.tmod`/`Int.tdiv` are C's `%` and `/`. -/
def simpson (o : Integrator α) : Option α :=
  if o.equally_spaced then
    if (o.arr_size - 1).tmod 2 ≠ 0 then trapz o
    else do
      let v1 ← rd o.my_var 1
      let v0 ← rd o.my_var 0
      let increment := v1 - v0
      let half_size := o.arr_size.tdiv 2
      let n := o.arr_size - 1
      let f0 ← rd o.my_integrand 0
      let fn ← rd o.my_integrand n
      let sum_result := f0 + fn
      let sum_result ← forUp 1 half_size sum_result
        (fun i acc => do
          let a ← rd o.my_integrand (2 * i - 1)
          let b ← rd o.my_integrand (2 * i)
          pure (acc + (((4 : Nat) : α) * a + ((2 : Nat) : α) * b)))
      let l ← rd o.my_integrand (n - 1)
      let sum_result := sum_result + ((4 : Nat) : α) * l
      pure ((increment / ((3 : Nat) : α)) * sum_result)
  else trapz o

/-- `integrate()`, num_integration.cpp:195-209 (the parallel versions are never called). -/
def integrate (o : Integrator α) : Option α :=
  if o.integration_switch = optTrapz then trapz o
  else if o.integration_switch = optSimpson then simpson o
  else trapz o

/-- The Python-level call `cni.integrate(method, es, integrand, variable, threads, parallel)`,
libcpp_num_integrator.pyx: constructs an integrator with `arrsize = integrand.shape[0]` and calls
`integrate()`.  Returns the result and the global map after the call. -/
def cniIntegrate (m : Mapper) (method : String) (es : Bool) (integrand var : List α)
    (num_threads : Int) (para : Bool) : Option α × Mapper :=
  let r := mk m integrand.length integrand var es method num_threads para
  (integrate r.1, r.2)

/-- One earlier call in the life of the process: only the method name matters for the global map. -/
def mapperAfter (history : List String) : Mapper :=
  history.foldl (fun m s => (mapperIndex m s).2) mapper0

end Verif.NumInt
