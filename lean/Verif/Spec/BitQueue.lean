import Verif.Basic
/-
A bit queue fed with whole generator values, most significant bit first.
-/
namespace Dh.Spec

/-- The `r` low bits of a value, most significant first. -/
def msbBits (r : Nat) (x : UInt) : List Bool := (List.range r).map fun i => x.getLsbD (r - 1 - i)

/-- A queue of pending bits and the number of values drawn. -/
structure Queue where
  pending : List Bool
  pos : Nat
  deriving DecidableEq, Repr

/-- Take one bit; an empty queue is refilled with the next value. -/
def Queue.pop (r : Nat) (src : Nat → UInt) (q : Queue) : Bool × Queue :=
  match q.pending with
  | b :: bs => (b, ⟨bs, q.pos⟩)
  | [] => ((msbBits r (src q.pos)).headD false, ⟨(msbBits r (src q.pos)).tail, q.pos + 1⟩)

/-- Take `n` bits. -/
def Queue.popN (r : Nat) (src : Nat → UInt) : Nat → Queue → List Bool × Queue
  | 0, q => ([], q)
  | n + 1, q =>
    let (b, q) := q.pop r src
    let (bs, q) := q.popN r src n
    (b :: bs, q)

/-- The number written by a list of bits, most significant first. -/
def valMsb (bs : List Bool) : UInt := bs.foldl (fun v b => 2 * v + (if b then 1 else 0)) 0

/-- Serve a history of requests: a request as wide as the generator takes a whole value
past the queue, every other request takes the next bits of the queue. -/
def Queue.serve (r : Nat) (src : Nat → UInt) : List Nat → Queue → List UInt × Queue
  | [], q => ([], q)
  | n :: ns, q =>
    let (x, q) := if n = r then (src q.pos, ⟨q.pending, q.pos + 1⟩)
      else let (bs, q) := q.popN r src n; (valMsb bs, q)
    let (xs, q) := Queue.serve r src ns q
    (x :: xs, q)

end Dh.Spec
