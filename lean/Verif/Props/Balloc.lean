import Verif.Model.Balloc
import Mathlib.Tactic.Linarith
import Mathlib.Tactic.Ring
import Mathlib.Data.List.Perm.Subperm
/-! Property theorems C39: the object pools. -/
namespace Nghttp3

/-- a program using a pool: `live` are the objects it has got and not released, `peak` is the largest number of live objects so far -/
structure PoolSys where
  pool : ObjPool
  live : List Nat
  peak : Nat := 0

inductive PoolOp where
  /-- get an object; if the pool has to ask malloc, malloc returns `p` -/
  | get (p : Nat)
  | release (q : Nat)

/-- the C library's promise for malloc: a block at least 8-byte aligned that does not overlap the blocks in use -/
def MallocOk (blklen : Nat) (head : List Nat) (p : Nat) : Prop :=
  p % 8 = 0 ∧ ∀ b ∈ head, p + Balloc.mallocLen blklen ≤ b ∨ b + Balloc.mallocLen blklen ≤ p

def PoolSys.legal (s : PoolSys) : PoolOp → Prop
  | .get p => MallocOk s.pool.balloc.blklen s.pool.balloc.head p
  | .release q => q ∈ s.live

def PoolSys.step (len : Nat) (s : PoolSys) : PoolOp → Option PoolSys
  | .get p =>
    match s.pool.get len p with
    | .crash => none
    | .ok q pool => some { pool, live := q :: s.live, peak := max s.peak (s.live.length + 1) }
  | .release q => some { s with pool := s.pool.release q, live := s.live.erase q }

inductive PoolSys.Reach (blklen len e : Nat) : PoolSys → Prop
  | init : Reach blklen len e { pool := { balloc := Balloc.init blklen e, opl := [] }, live := [] }
  | step {s s' : PoolSys} {o : PoolOp} (h : Reach blklen len e s) (hl : s.legal o) (hs : s.step len o = some s') :
      Reach blklen len e s'

/-- the objects of `len` bytes at `q` and `q'` do not share a byte -/
def Apart (len q q' : Nat) : Prop := q + len ≤ q' ∨ q' + len ≤ q

theorem Apart.symm {len q q' : Nat} (h : Apart len q q') : Apart len q' q := Or.symm h

theorem align16_spec (n : Nat) : n ≤ align16 n ∧ align16 n < n + 16 ∧ align16 n % 16 = 0 := by
  unfold align16; omega

structure PoolOk (blklen len : Nat) (s : PoolSys) : Prop where
  blk : s.pool.balloc.blklen = blklen
  carved : ∀ q ∈ s.live ++ s.pool.opl, q % 16 = 0 ∧
    ∃ b ∈ s.pool.balloc.head, b + 8 ≤ q ∧ q + align16 len ≤ b + Balloc.mallocLen blklen
  apart : (s.live ++ s.pool.opl).Pairwise (Apart (align16 len))
  cur : (s.pool.balloc.head = [] ∧ s.pool.balloc.last = s.pool.balloc.fin ∧ s.live ++ s.pool.opl = []) ∨
    ∃ p t used, s.pool.balloc.head = p :: t ∧ s.pool.balloc.last % 16 = 0 ∧ s.pool.balloc.fin % 16 = 0 ∧
      p + 8 ≤ s.pool.balloc.last ∧ s.pool.balloc.fin ≤ p + Balloc.mallocLen blklen ∧
      s.pool.balloc.last + blklen = s.pool.balloc.fin + used * align16 len ∧ s.pool.balloc.last ≤ s.pool.balloc.fin ∧ 0 < used ∧
      (s.live ++ s.pool.opl).length = t.length * (blklen / align16 len) + used ∧
      ∀ q ∈ s.live ++ s.pool.opl, q + align16 len ≤ s.pool.balloc.last ∨ s.pool.balloc.fin ≤ q
  blocks : s.pool.balloc.head.Pairwise (Apart (Balloc.mallocLen blklen))
  peak : s.peak = (s.live ++ s.pool.opl).length

theorem pool_step {blklen len : Nat} (hb : blklen % 16 = 0) (hl0 : 0 < len) (hlen : len ≤ blklen) {s : PoolSys}
    (h : PoolOk blklen len s) (o : PoolOp) (hl : s.legal o) : ∃ s', s.step len o = some s' ∧ PoolOk blklen len s' := by
  obtain ⟨ha1, ha2, ha3⟩ := align16_spec len
  have hal : align16 len ≤ blklen := by omega
  cases o with
  | release q =>
    have hq : q ∈ s.live := hl
    refine ⟨_, rfl, ?_⟩
    have hp : (s.live.erase q ++ q :: s.pool.opl).Perm (s.live ++ s.pool.opl) :=
      List.perm_middle.trans ((List.perm_cons_erase hq).symm.append_right s.pool.opl)
    refine ⟨h.blk, fun x hx => h.carved x (hp.mem_iff.1 hx), ?_, ?_, h.blocks, ?_⟩
    · exact (hp.pairwise_iff (fun h => Apart.symm h)).2 h.apart
    · rcases h.cur with ⟨h1, h2, h3⟩ | ⟨p, t, used, h1, h2, h3, h4, h5, h6, h7, h8, h9, h10⟩
      · simp only [List.append_eq_nil_iff] at h3
        rw [h3.1] at hq; cases hq
      · exact Or.inr ⟨p, t, used, h1, h2, h3, h4, h5, h6, h7, h8, hp.length_eq.trans h9, fun x hx => h10 x (hp.mem_iff.1 hx)⟩
    · exact h.peak.trans hp.length_eq.symm
  | get p =>
    obtain ⟨hp8, hpd⟩ : MallocOk s.pool.balloc.blklen s.pool.balloc.head p := hl
    unfold PoolSys.step
    dsimp only
    unfold ObjPool.get
    cases hopl : s.pool.opl with
    | cons q t =>
      dsimp only
      have hp : (q :: s.live ++ t).Perm (s.live ++ s.pool.opl) := by rw [hopl]; exact List.perm_middle.symm
      refine ⟨_, rfl, ⟨h.blk, fun x hx => h.carved x (hp.mem_iff.1 hx), (hp.pairwise_iff (fun h => Apart.symm h)).2 h.apart, ?_,
        h.blocks, ?_⟩⟩
      · rcases h.cur with ⟨h1, h2, h3⟩ | ⟨p, t, used, h1, h2, h3, h4, h5, h6, h7, h8, h9, h10⟩
        · rw [hopl] at h3; simp at h3
        · exact Or.inr ⟨p, t, used, h1, h2, h3, h4, h5, h6, h7, h8, hp.length_eq.trans h9, fun x hx => h10 x (hp.mem_iff.1 hx)⟩
      · have h1 := h.peak
        have h2 := hp.length_eq
        rw [← h2] at h1
        dsimp only
        rw [h1]
        simp
    | nil =>
      dsimp only
      have hcar := h.carved
      have hap := h.apart
      have hcur := h.cur
      have hpk := h.peak
      rw [hopl, List.append_nil] at hcar hap hcur hpk
      unfold Balloc.get
      rw [h.blk] at hpd
      rw [h.blk, if_neg (by omega)]
      dsimp only
      obtain ⟨hs1, hs2, hs3⟩ := align16_spec (p + 8)
      by_cases hlt : s.pool.balloc.fin - s.pool.balloc.last < len
      · rw [if_pos hlt]
        dsimp only
        rw [if_neg (by omega)]
        dsimp only
        refine ⟨_, rfl, ?_⟩
        have hfar : ∀ x ∈ s.live, x + align16 len ≤ align16 (p + 8) ∨ align16 (p + 8) + blklen ≤ x := by
          intro x hx
          obtain ⟨_, b, hb1, hb2, hb3⟩ := hcar x hx
          have := hpd b hb1
          unfold Balloc.mallocLen at this hb3
          omega
        refine ⟨rfl, fun x hx => ?_, ?_, Or.inr ?_, ?_, ?_⟩
        · simp only [hopl, List.append_nil, List.mem_cons] at hx
          rcases hx with rfl | hx
          · refine ⟨hs3, p, List.mem_cons_self, by omega, ?_⟩
            unfold Balloc.mallocLen; omega
          · obtain ⟨h1, b, h2, h3⟩ := hcar x hx
            exact ⟨h1, b, List.mem_cons_of_mem _ h2, h3⟩
        · simp only [hopl, List.append_nil, List.pairwise_cons]
          refine ⟨fun x hx => ?_, hap⟩
          have := hfar x hx
          unfold Apart; omega
        · refine ⟨p, s.pool.balloc.head, 1, rfl, ?_, ?_, ?_, ?_, ?_, ?_, by omega, ?_, ?_⟩
          · dsimp only; omega
          · dsimp only; omega
          · dsimp only; omega
          · dsimp only; unfold Balloc.mallocLen; omega
          · dsimp only; omega
          · dsimp only; omega
          · simp only [hopl, List.append_nil, List.length_cons]
            rcases hcur with ⟨h1, h2, h3⟩ | ⟨p', t, used, h1, h2, h3, h4, h5, h6, h7, h8, h9, h10⟩
            · rw [h1, h3]; simp
            · rw [h1, h9, List.length_cons]
              have hk : blklen / align16 len = used := by
                apply Nat.div_eq_of_lt_le
                · omega
                · rw [Nat.add_mul]; omega
              rw [hk]; ring
          · intro x hx
            simp only [hopl, List.append_nil, List.mem_cons] at hx
            dsimp only
            rcases hx with rfl | hx
            · omega
            · have := hfar x hx; omega
        · dsimp only
          rw [List.pairwise_cons]
          refine ⟨fun b hb => ?_, h.blocks⟩
          have := hpd b hb
          unfold Apart; omega
        · simp only [hopl, List.append_nil, List.length_cons]
          omega
      · rw [if_neg hlt]
        rcases hcur with ⟨h1, h2, h3⟩ | ⟨p', t, used, h1, h2, h3, h4, h5, h6, h7, h8, h9, h10⟩
        · omega
        · rw [if_neg (by omega)]
          dsimp only
          have hroom : s.pool.balloc.last + align16 len ≤ s.pool.balloc.fin := by omega
          refine ⟨_, rfl, ⟨h.blk, fun x hx => ?_, ?_, Or.inr ?_, h.blocks, ?_⟩⟩
          · simp only [hopl, List.append_nil, List.mem_cons] at hx
            rcases hx with rfl | hx
            · exact ⟨h2, p', by dsimp only; rw [h1]; exact List.mem_cons_self, by omega, by omega⟩
            · exact hcar x hx
          · simp only [hopl, List.append_nil, List.pairwise_cons]
            refine ⟨fun x hx => ?_, hap⟩
            have := h10 x hx
            unfold Apart; omega
          · refine ⟨p', t, used + 1, h1, ?_, h3, ?_, h5, ?_, ?_, by omega, ?_, ?_⟩
            · dsimp only; omega
            · dsimp only; omega
            · dsimp only; rw [Nat.add_mul]; omega
            · dsimp only; omega
            · simp only [hopl, List.append_nil, List.length_cons]; omega
            · intro x hx
              simp only [hopl, List.append_nil, List.mem_cons] at hx
              dsimp only
              rcases hx with rfl | hx
              · omega
              · have := h10 x hx; omega
          · simp only [hopl, List.append_nil, List.length_cons]
            omega

theorem pool_reach {blklen len e : Nat} (hb : blklen % 16 = 0) (hl0 : 0 < len) (hlen : len ≤ blklen) {s : PoolSys}
    (h : PoolSys.Reach blklen len e s) : PoolOk blklen len s := by
  induction h with
  | init => exact ⟨rfl, by simp, by simp, Or.inl ⟨rfl, rfl, rfl⟩, by simp [Balloc.init], rfl⟩
  | step _ hl hs ih =>
    obtain ⟨s1, h1, h2⟩ := pool_step hb hl0 hlen ih _ hl
    rw [hs] at h1; cases h1; exact h2

namespace Props

/-- C39.  No request fails an assertion. -/
theorem C39_no_assertion_fails (blklen len e : Nat) (hb : blklen % 16 = 0) (hl0 : 0 < len) (hlen : len ≤ blklen) (s : PoolSys)
    (h : PoolSys.Reach blklen len e s) (o : PoolOp) (hl : s.legal o) : s.step len o ≠ none := by
  obtain ⟨s', h1, _⟩ := pool_step hb hl0 hlen (pool_reach hb hl0 hlen h) o hl
  rw [h1]; simp

/-- C39.  All objects in use are aligned to 16 bytes, lie inside a block obtained from malloc and clear of its header, and no two
of them share a byte; nor do they share one with an object waiting on the free list. -/
theorem C39_objects_disjoint (blklen len e : Nat) (hb : blklen % 16 = 0) (hl0 : 0 < len) (hlen : len ≤ blklen) (s : PoolSys)
    (h : PoolSys.Reach blklen len e s) :
    (s.live ++ s.pool.opl).Pairwise (fun q q' => q + len ≤ q' ∨ q' + len ≤ q) ∧
    ∀ q ∈ s.live, q % 16 = 0 ∧ ∃ b ∈ s.pool.balloc.head, b + 8 ≤ q ∧ q + len ≤ b + (16 + blklen) := by
  obtain ⟨ha1, _, _⟩ := align16_spec len
  have hr := pool_reach hb hl0 hlen h
  refine ⟨hr.apart.imp (fun {a b} h => ?_), fun q hq => ?_⟩
  · unfold Apart at h; omega
  · obtain ⟨h1, b, h2, h3, h4⟩ := hr.carved q (List.mem_append_left _ hq)
    unfold Balloc.mallocLen at h4
    exact ⟨h1, b, h2, h3, by omega⟩

/-- C39.  Memory is reused: at any time exactly as many blocks have been requested as are needed for the largest number of
objects that were ever in use together. -/
theorem C39_memory_is_reused (blklen len e : Nat) (hb : blklen % 16 = 0) (hl0 : 0 < len) (hlen : len ≤ blklen) (s : PoolSys)
    (h : PoolSys.Reach blklen len e s) :
    s.peak ≤ s.pool.balloc.head.length * (blklen / align16 len) ∧
    s.pool.balloc.head.length * (blklen / align16 len) < s.peak + blklen / align16 len := by
  obtain ⟨ha1, ha2, ha3⟩ := align16_spec len
  have hk : 0 < blklen / align16 len := Nat.div_pos (by omega) (by omega)
  have hr := pool_reach hb hl0 hlen h
  rw [hr.peak]
  rcases hr.cur with ⟨h1, h2, h3⟩ | ⟨p, t, used, h1, h2, h3, h4, h5, h6, h7, h8, h9, h10⟩
  · rw [h1, h3]; simp; omega
  · rw [h9, h1, List.length_cons, Nat.add_mul]
    have : used ≤ blklen / align16 len := (Nat.le_div_iff_mul_le (by omega)).2 (by omega)
    omega

/-- C39 needs malloc to return addresses aligned to 8 bytes: from an address that ends in 9 the only object of a block of 16 bytes
would extend 7 bytes beyond the block. -/
theorem C39_needs_aligned_malloc : ∃ q a, (Balloc.init 16 0).get 16 9 = .ok q a ∧ 9 + Balloc.mallocLen 16 < q + 16 :=
  ⟨32, ⟨16, [9], 48, 48⟩, by decide, by decide⟩

def poolRun (len : Nat) (s : PoolSys) : List PoolOp → Option PoolSys
  | [] => some s
  | o :: t => (s.step len o).bind fun s' => poolRun len s' t

/-- blocks of 64 bytes, objects of 20: three gets need two blocks, a released object is reused, a further get needs no block -/
example : (poolRun 20 { pool := { balloc := Balloc.init 64 7, opl := [] }, live := [] }
    [.get 1000, .get 3000, .get 2000, .release 1008, .get 5000, .get 4000]).map
    (fun s => (s.live, s.pool.opl, s.pool.balloc.head, s.peak)) =
      some ([2048, 1008, 2016, 1040], [], [2000, 1000], 4) := by decide

end Props
end Nghttp3
