/-! What an ordered map is: a list sorted by `lt`, with insertion, removal and lower bound on lists. -/
namespace Spec
variable {K D : Type}

/-- elements before `key`, and the rest -/
def before (lt : K → K → Bool) (key : K) (l : List (K × D)) : List (K × D) := l.takeWhile (fun p => lt p.1 key)
def from_ (lt : K → K → Bool) (key : K) (l : List (K × D)) : List (K × D) := l.dropWhile (fun p => lt p.1 key)

/-- is there an element with this key?  (`from_` starts with the first key not before `key`) -/
def present (lt : K → K → Bool) (key : K) (l : List (K × D)) : Bool :=
  match from_ lt key l with
  | [] => false
  | p :: _ => !lt key p.1

def insert (lt : K → K → Bool) (key : K) (d : D) (l : List (K × D)) : Bool × List (K × D) :=
  if present lt key l then (false, l) else (true, before lt key l ++ (key, d) :: from_ lt key l)

def remove (lt : K → K → Bool) (key : K) (l : List (K × D)) : Bool × List (K × D) :=
  if present lt key l then (true, before lt key l ++ (from_ lt key l).tail) else (false, l)

/-- replace the key of the element with key `old` -/
def rekey (lt : K → K → Bool) (old new : K) (l : List (K × D)) : List (K × D) :=
  match from_ lt old l with
  | [] => l
  | p :: t => before lt old l ++ (new, p.2) :: t

end Spec
