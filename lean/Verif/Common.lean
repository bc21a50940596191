/-!
# Shared machinery: C-style buffers and loops

`none` in an `Option` result means *undefined behaviour* (an access outside a buffer).
-/
namespace Verif

/-- A checked C read `buf[i]` with a signed index; outside the buffer is `none` (UB). -/
def rd {α : Type} (buf : List α) (i : Int) : Option α :=
  if i < 0 then none else buf[i.toNat]?

/-- A checked C write `buf[i] = v`; outside the buffer is `none` (UB). -/
def wr {α : Type} (buf : List α) (i : Int) (v : α) : Option (List α) :=
  if i < 0 then none else if i.toNat < buf.length then some (buf.set i.toNat v) else none

/-- The C loop `for (int i = lo; i < hi; i++) acc = body(i, acc)`. -/
def forUp {σ : Type} (lo hi : Int) (acc : σ) (body : Int → σ → Option σ) : Option σ :=
  (List.range (hi - lo).toNat).foldlM (fun a (k : Nat) => body (lo + (k : Int)) a) acc

/-- The buffer holding `f 0, …, f (n-1)`.  Every list of length `n` is of this form. -/
def tab {α : Type} (n : Nat) (f : Nat → α) : List α := (List.range n).map f

end Verif
