import Verif.Model.Huffman
import Verif.Spec.Huffman

/-! Finite checks of the Huffman tables, by kernel evaluation (`decide +kernel`; no compiled code is involved).
They are written over numbers so that the kernel's arithmetic does the work. -/
namespace Nghttp3
namespace Huff

def nth {α : Type} (d : α) : List α → Nat → α
  | [], _ => d
  | a :: _, 0 => a
  | _ :: t, n + 1 => nth d t n

theorem nth_eq {α : Type} (d : α) (l : List α) (n : Nat) : nth d l n = (l[n]?).getD d := by
  induction l generalizing n with
  | nil => rfl
  | cons a t ih => cases n with
    | zero => rfl
    | succ n => simp [nth, ih]

/-- the accept flag says: fewer than 8 pending bits, all ones -/
def okAcc : Nat × Nat → Nat → Bool
  | (k, v), f => (Nat.beq (Nat.land f 16384) 0) != (Nat.ble (k + 1) 8 && Nat.beq (v + 1) (Nat.pow 2 k))

/-- `k + 4` pending bits of value `v` are a code word followed by the pending bits of the next state -/
def okSym : Nat × Nat → Nat → Nat → Nat × Nat → Bool
  | (n, c), k, v, (k', v') => Nat.beq (k + 4) (n + k') && Nat.beq v (Nat.shiftRight c (Nat.sub 32 n) * Nat.pow 2 k' + v')

/-- the part of the check for entries that are not the failure state -/
def okGo (k w s f : Nat) : Bool :=
  Nat.ble (Nat.land f 511 + 1) 256 && Nat.ble (s + 1) 256 && okAcc (nth (0, 0) paths (Nat.land f 511)) f &&
    match Nat.beq (Nat.land f 32768) 0 with
    | true => okSym (0, 0) k w (nth (0, 0) paths (Nat.land f 511))
    | false => okSym (nth (0, 0) symTable s) k w (nth (0, 0) paths (Nat.land f 511))

/-- entry for a state with pending bits `(k, v)` and nibble `x` -/
def okEntry (k v x : Nat) : Nat × Nat → Bool
  | (f, s) =>
    match Nat.beq (Nat.land f 511) 256 with
    | true => Nat.beq f 256 && Nat.ble 30 (k + 4) &&
        Nat.beq (Nat.shiftRight (v * 16 + x) (Nat.sub (k + 4) 30)) (Nat.sub (Nat.pow 2 30) 1)
    | false => okGo k (v * 16 + x) s f

def okRow (k v : Nat) : Nat → List (Nat × Nat) → Bool
  | x, [] => Nat.beq x 16
  | x, e :: t => match okEntry k v x e with
    | true => okRow k v (x + 1) t
    | false => false

def okRows : List (Nat × Nat) → List (List (Nat × Nat)) → Bool
  | [], _ => true
  | _ :: _, [] => false
  | (k, v) :: ps, r :: rs => match okRow k v 0 r with
    | true => okRows ps rs
    | false => false

theorem table_check : okRows paths decTable = true := by decide +kernel

def okFail : List (Nat × Nat) → Bool
  | [] => true
  | (f, _) :: t => Nat.beq f 256 && okFail t

theorem fail_check : okFail (nth [] decTable 256) = true := by decide +kernel
theorem fail_len : (nth [] decTable 256).length = 16 := by decide +kernel

/-- some code word other than EOS properly extends the pending bits -/
def someLonger (k v : Nat) : List (Nat × Nat) → Bool
  | [] => false
  | (n, c) :: t => match Nat.ble (k + 1) n && Nat.beq (Nat.shiftRight c (Nat.sub 32 k)) v with
    | true => true
    | false => someLonger k v t

def okPaths (sy : List (Nat × Nat)) : List (Nat × Nat) → Bool
  | [] => true
  | (k, v) :: t => match someLonger k v sy with
    | true => okPaths sy t
    | false => false

theorem path_check : okPaths (symTable.take 256) paths = true := by decide +kernel

/-- the first word is a prefix of the second -/
def pfxN : Nat × Nat → Nat × Nat → Bool
  | (n, c), (m, d) => Nat.ble n m && Nat.beq (Nat.shiftRight d (Nat.sub 32 n)) (Nat.shiftRight c (Nat.sub 32 n))

def noPfx1 (a : Nat × Nat) : List (Nat × Nat) → Bool
  | [] => true
  | b :: t => match pfxN a b with
    | true => false
    | false => match pfxN b a with
       | true => false
       | false => noPfx1 a t

def noPfx : List (Nat × Nat) → Bool
  | [] => true
  | a :: t => match noPfx1 a t with
    | true => noPfx t
    | false => false

theorem prefix_check : noPfx symTable = true := by decide +kernel

def okSyms : List (Nat × Nat) → Bool
  | [] => true
  | (n, c) :: t => Nat.ble 5 n && Nat.ble n 30 && Nat.ble (c + 1) (Nat.pow 2 32) &&
      Nat.beq (Nat.mod c (Nat.pow 2 (Nat.sub 32 n))) 0 && okSyms t

theorem sym_check : okSyms symTable = true := by decide +kernel
theorem sym_len : symTable.length = 257 := by decide +kernel
theorem paths_len : paths.length = 256 := by decide +kernel
theorem path0 : nth (0, 0) paths 0 = (0, 0) := by decide +kernel
theorem eos_entry : nth (0, 0) symTable 256 = (30, 0xfffffffc) := by decide +kernel

end Huff
end Nghttp3
