/-! What a bounded double-ended queue is: a capacity and a list, front first. -/
namespace Spec

structure Deque (α : Type) where
  cap : Nat
  items : List α

def IsPow2 (n : Nat) : Prop := ∃ k, n = 2 ^ k

/-- documented preconditions: something to store into, something to remove, capacities powers of two -/
def Deque.CanPush {α} (d : Deque α) : Prop := 0 < d.cap
def Deque.CanPop {α} (d : Deque α) : Prop := d.items ≠ []

def Deque.pushFront {α} (d : Deque α) (x : α) : Deque α := ⟨d.cap, (x :: d.items).take d.cap⟩
def Deque.pushBack {α} (d : Deque α) (x : α) : Deque α :=
  ⟨d.cap, if d.items.length = d.cap then d.items.tail ++ [x] else d.items ++ [x]⟩
def Deque.popFront {α} (d : Deque α) : Deque α := ⟨d.cap, d.items.tail⟩
def Deque.popBack {α} (d : Deque α) : Deque α := ⟨d.cap, d.items.dropLast⟩
/-- only shrinking is meaningful -/
def Deque.resize {α} (d : Deque α) (n : Nat) : Deque α := ⟨d.cap, d.items.take n⟩
def Deque.reserve {α} (d : Deque α) (n : Nat) : Deque α := ⟨max d.cap n, d.items⟩

end Spec
