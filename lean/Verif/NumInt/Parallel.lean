import Verif.NumInt.Model
/-!
# OpenMP versions of the integrators (`trapz_parallel`, `simpson_parallel`)

These methods are private and never called by `integrate()` (num_integration.cpp:195-209); they are
modelled because they are part of the class.

A `parallel for … reduction(+ : s)` is modelled by the set of its possible executions:
the iterations are distributed over the threads (`sched : List (List Nat)`, one list of iteration
numbers per thread, in that thread's execution order), every thread adds to a private copy that
starts at 0, and the private copies are added to the original variable in the order of the list
(any order and any distribution is possible, so theorems quantify over all `sched`).
-/
namespace Verif.NumInt
variable {α : Type} [Add α] [Sub α] [Mul α] [Div α] [NatCast α]

/-- `sched` is a distribution of exactly the iterations `lo ≤ i < hi`. -/
def IsSchedule (sched : List (List Nat)) (lo hi : Nat) : Prop :=
  sched.flatten.Perm (List.range' lo (hi - lo))

/-- One thread's private sum. -/
def privateSum (g : Nat → Option α) (its : List Nat) : Option α :=
  its.foldlM (fun acc i => do let v ← g i; pure (acc + v)) ((0 : Nat) : α)

/-- `reduction(+ : s)` over the distribution `sched`. -/
def reduction (sched : List (List Nat)) (init : α) (g : Nat → Option α) : Option α :=
  sched.foldlM (fun acc its => do let v ← privateSum g its; pure (acc + v)) init

/-- Equal-spacing branch of `trapz_parallel()`, num_integration.cpp:91-106. -/
def trapzParallelEven (o : Integrator α) (sched : List (List Nat)) : Option α := do
  let v1 ← rd o.my_var 1
  let v0 ← rd o.my_var 0
  let f0 ← rd o.my_integrand 0
  let fn ← rd o.my_integrand (o.arr_size - 1)
  let s ← reduction sched ((f0 + fn) / ((2 : Nat) : α)) (fun i => rd o.my_integrand i)
  pure (s * (v1 - v0))

/-- Equal-spacing, odd-size branch of `simpson_parallel()`, num_integration.cpp:162-185 (the other
branches call the serial `trapz()`). -/
def simpsonParallel (o : Integrator α) (sched : List (List Nat)) : Option α :=
  if o.equally_spaced then
    if (o.arr_size - 1).tmod 2 ≠ 0 then trapz o
    else do
      let v1 ← rd o.my_var 1
      let v0 ← rd o.my_var 0
      let n := o.arr_size - 1
      let f0 ← rd o.my_integrand 0
      let fn ← rd o.my_integrand n
      let s ← reduction sched (f0 + fn) (fun i => do
        let a ← rd o.my_integrand (2 * (i : Int) - 1)
        let b ← rd o.my_integrand (2 * (i : Int))
        pure (((4 : Nat) : α) * a + ((2 : Nat) : α) * b))
      let l ← rd o.my_integrand (n - 1)
      pure (((v1 - v0) / ((3 : Nat) : α)) * (s + ((4 : Nat) : α) * l))
  else trapz o

/-! ## Unequal-spacing branch of `trapz_parallel()`

num_integration.cpp:107-118 declares `local_integrand_sum` and `local_increment` *outside* the
parallel region and does not list them as private, so they are shared by all threads.  The branch is
modelled by interleavings of its three statements (each taken as atomic, which only restricts the
behaviours). -/

/-- The three statements of the loop body for iteration `i`. -/
inductive Stmt where
  /-- `local_increment = my_var[i] - my_var[i-1];` -/
  | setInc (i : Nat)
  /-- `local_integrand_sum = (my_integrand[i] + my_integrand[i-1]) / 2.0;` -/
  | setSum (i : Nat)
  /-- `integration_result += local_integrand_sum * local_increment;` -/
  | addRes
  deriving DecidableEq, Repr

/-- Shared variables and the private reduction copies (indexed by thread). -/
structure RaceState (α : Type) where
  local_increment : α
  local_integrand_sum : α
  priv : Nat → α

/-- The loop body of iteration `i` as a statement sequence. -/
def bodyStmts (i : Nat) : List Stmt := [.setInc i, .setSum i, .addRes]

/-- Program of a thread that executes the iterations `its`. -/
def threadProg (its : List Nat) : List Stmt := its.flatMap bodyStmts

/-- One statement executed by thread `t` (indices in range are assumed here: `x`, `f` are total). -/
def raceStep (x f : Nat → α) (s : RaceState α) (e : Nat × Stmt) : RaceState α :=
  match e.2 with
  | .setInc i => { s with local_increment := x i - x (i - 1) }
  | .setSum i => { s with local_integrand_sum := (f i + f (i - 1)) / ((2 : Nat) : α) }
  | .addRes =>
    { s with priv := fun t => if t = e.1 then s.priv t + s.local_integrand_sum * s.local_increment
                              else s.priv t }

/-- `tr` is an interleaving of the programs of the threads `0 … sched.length-1`. -/
def IsInterleaving (sched : List (List Nat)) (tr : List (Nat × Stmt)) : Prop :=
  (∀ e ∈ tr, e.1 < sched.length) ∧
  ∀ t (h : t < sched.length), (tr.filter (fun e => e.1 == t)).map Prod.snd = threadProg sched[t]

/-- Result of the branch for the interleaving `tr` of `nthreads` threads; `d1`, `d2` are the
(indeterminate) initial values of the uninitialised temporaries. -/
def trapzParallelUneven (x f : Nat → α) (d1 d2 : α) (nthreads : Nat) (tr : List (Nat × Stmt)) : α :=
  let fin := tr.foldl (raceStep x f)
    { local_increment := d1, local_integrand_sum := d2, priv := fun _ => ((0 : Nat) : α) }
  (List.range nthreads).foldl (fun acc t => acc + fin.priv t) ((0 : Nat) : α)

end Verif.NumInt
