import Verif.Proof.Fips202
import Verif.Proof.Indcpa
import Verif.Spec.Noise
import Mathlib.Data.ZMod.Basic
/-!
# Evaluation of the specification on concrete data

The specification works with bit strings and functions, which the kernel cannot evaluate at full size.  This file relates it to numbers: a byte string is
`bytesN N n`, the coefficients of a polynomial modulo `2^13` are the 13-bit digits of a number, and hash values come from single permutations.  It is used in
`Props/Vector.lean` only.
-/
namespace Saber
open Spec Spec.Keccak

/-! ### Hash functions -/

/-- `t` is the list of states after `s` -/
def PermChain : List (BitVec 64) → List (List (BitVec 64)) → Prop
  | _, [] => True
  | s, t :: ts => s.length = 25 ∧ (KeccakF1600_StatePermute s).toOption = some t ∧ PermChain t ts

theorem of_toOption {α : Type} {x : CM α} {a : α} (h : x.toOption = some a) : x = .ok a := by
  cases x with
  | error e => cases h
  | ok b => exact congrArg _ (Option.some.inj h)

theorem perm_bits {s t : List (BitVec 64)} (hs : s.length = 25) (h : (KeccakF1600_StatePermute s).toOption = some t) :
    keccakF (bitsOfLanes s) = bitsOfLanes t := by
  obtain ⟨t', e, -, h2⟩ := KeccakF1600_ok s hs
  rw [of_toOption h] at e
  cases e
  exact h2.symm

/-- The bytes of the first `n` lanes. -/
def laneBytes (n : Nat) (s : List (BitVec 64)) : List Byte := (List.range n).flatMap fun i => bytes64 (s.getD i 0)

theorem sqBytes_cons (r : Nat) (S : List Bool) (n : Nat) :
    sqBytes r S (n + 1) = bytesOfBits (S.take (8 * r)) ++ sqBytes r (keccakF S) n := by
  unfold sqBytes
  rw [List.range_succ_eq_map, List.flatMap_cons, List.flatMap_map]
  rfl

theorem sqBytes_chain (r8 : Nat) (hr : r8 ≤ 25) : ∀ (ts : List (List (BitVec 64))) (s : List (BitVec 64)), PermChain s ts →
    sqBytes (8 * r8) (keccakF (bitsOfLanes s)) ts.length = ts.flatMap (laneBytes r8)
  | [], _, _ => rfl
  | t :: ts, s, ⟨h1, h2, h3⟩ => by
    rw [List.length_cons, sqBytes_cons, List.flatMap_cons, perm_bits h1 h2, sqBytes_chain r8 hr ts t h3, laneBytes, rate_bytes _ _ hr,
      show 8 * (8 * r8) = 64 * r8 by omega]

theorem sponge_eval (r8 : Nat) (hr0 : 0 < r8) (hr : r8 < 25) (p : Byte) (suf : List Bool) (hp : SepByte p suf) (M : List Byte) (s : List (BitVec 64))
    (ts : List (List (BitVec 64))) (n : Nat) (h0 : keccak_absorb (List.replicate 25 0) (8 * r8) M 0 M.length p = .ok s) (hc : PermChain s ts)
    (hn : n ≤ 8 * r8 * ts.length) :
    bytesOfBits (sponge (8 * (8 * r8)) (bitsOfBytes M ++ suf) (8 * n)) = (ts.flatMap (laneBytes r8)).take n := by
  have hz : bitsOfLanes (List.replicate 25 0) = List.replicate 1600 false := by
    apply ext_getD false (by rw [length_bitsOfLanes, List.length_replicate])
    intro n hn
    rw [length_bitsOfLanes] at hn
    rw [getD_bitsOfLanes _ _ hn, List.getD_replicate _ hn, List.getD_replicate _ (by omega)]
    simp
  obtain ⟨s', e, -, h2⟩ := keccak_absorb_ok (List.replicate 25 0) (by simp) hz (8 * r8) (by omega) (by omega) (by omega) M 0 M.length (by omega) p suf hp
  rw [h0] at e
  cases e
  rw [List.drop_zero, List.take_length] at h2
  rw [sponge_bytes (8 * r8) (by omega) (by omega) _ n ts.length hn, ← h2, sqBytes_chain r8 (by omega) ts s hc]

theorem shake128_eval (M : List Byte) (s : List (BitVec 64)) (ts : List (List (BitVec 64))) (n : Nat) (out : List Byte)
    (h0 : keccak_absorb (List.replicate 25 0) 168 M 0 M.length 0x1F = .ok s) (hc : PermChain s ts) (hn : n ≤ 168 * ts.length)
    (ho : (ts.flatMap (laneBytes 21)).take n = out) : Keccak.shake128 M n = out := by
  rw [Keccak.shake128, show 1600 - 256 = 8 * (8 * 21) from rfl, sponge_eval 21 (by omega) (by omega) _ _ sepByte_shake M s ts n h0 hc hn, ho]

theorem sha3_256_eval (M : List Byte) (s t : List (BitVec 64)) (out : List Byte)
    (h0 : keccak_absorb (List.replicate 25 0) 136 M 0 M.length 0x06 = .ok s) (hc : PermChain s [t])
    (ho : (laneBytes 17 t).take 32 = out) : Keccak.sha3_256 M = out := by
  rw [Keccak.sha3_256, show 1600 - 512 = 8 * (8 * 17) from rfl, show (256 : Nat) = 8 * 32 from rfl,
    sponge_eval 17 (by omega) (by omega) _ _ sepByte_sha3 M s [t] 32 h0 hc (by simp), ← ho, List.flatMap_cons, List.flatMap_nil, List.append_nil]

theorem sha3_512_eval (M : List Byte) (s t : List (BitVec 64)) (out : List Byte)
    (h0 : keccak_absorb (List.replicate 25 0) 72 M 0 M.length 0x06 = .ok s) (hc : PermChain s [t])
    (ho : (laneBytes 9 t).take 64 = out) : Keccak.sha3_512 M = out := by
  rw [Keccak.sha3_512, show 1600 - 1024 = 8 * (8 * 9) from rfl, show (512 : Nat) = 8 * 64 from rfl,
    sponge_eval 9 (by omega) (by omega) _ _ sepByte_sha3 M s [t] 64 h0 hc (by simp), ← ho, List.flatMap_cons, List.flatMap_nil, List.append_nil]

theorem absorbLoop_step {s s1 s2 : List (BitVec 64)} {r : Nat} {m : List Byte} {off len : Nat} {o : List (BitVec 64) × Nat × Nat} (hr : 0 < r)
    (hl : r ≤ len) (h1 : (xorBlock s r m off).toOption = some s1) (h2 : (KeccakF1600_StatePermute s1).toOption = some s2)
    (h3 : absorbLoop s2 r m (off + r) (len - r) = .ok o) : absorbLoop s r m off len = .ok o := by
  rw [absorbLoop, dif_pos ⟨hl, hr⟩, of_toOption h1, ok_bind]
  show (KeccakF1600_StatePermute s1 >>= fun s => absorbLoop s r m (off + r) (len - r)) = _
  rw [of_toOption h2, ok_bind, h3]

theorem absorbLoop_done {s : List (BitVec 64)} {r : Nat} {m : List Byte} {off len : Nat} (hl : len < r) :
    absorbLoop s r m off len = .ok (s, off, len) := by
  rw [absorbLoop, dif_neg (by omega)]; rfl

/-- The part of `keccak_absorb` after its loop (fips202.c:352-359). -/
def absorbLast (s : List (BitVec 64)) (r : Nat) (m : List Byte) (mOff mlen : Nat) (p : Byte) : CM (List (BitVec 64)) := do
  let t := uninit 8 20 200
  let t ← loop r t fun i t => wr t i 0
  let t ← loop mlen t fun i t => do
    let v ← rd m (mOff + i)
    wr t i v
  let t ← wr t mlen p
  let v ← rd t (r - 1)
  let t ← wr t (r - 1) (v ||| 128)
  xorBlock s r t 0

theorem keccak_absorb_eq (s : List (BitVec 64)) (r : Nat) (m : List Byte) (mOff mlen : Nat) (p : Byte) :
    keccak_absorb s r m mOff mlen p = absorbLoop s r m mOff mlen >>= fun o => absorbLast o.1 r m o.2.1 o.2.2 p := rfl

theorem keccak_absorb_last {s s' t : List (BitVec 64)} {r : Nat} {m : List Byte} {mOff mlen mOff' mlen' : Nat} {p : Byte}
    (h : absorbLoop s r m mOff mlen = .ok (s', mOff', mlen')) (h2 : (absorbLast s' r m mOff' mlen' p).toOption = some t) :
    keccak_absorb s r m mOff mlen p = .ok t := by
  rw [keccak_absorb_eq, h, ok_bind]
  exact of_toOption h2

/-! ### Byte strings as numbers -/

/-- The byte string of length `n` of a number, least significant byte first. -/
def bytesN (N n : Nat) : List Byte := (List.range n).map fun m => BitVec.ofNat 8 (Nat.shiftRight N (Nat.mul 8 m))

@[simp] theorem length_bytesN (N n : Nat) : (bytesN N n).length = n := by simp [bytesN]

theorem bitAt_bytesN (N n k : Nat) (h : k < 8 * n) : bitAt (bytesN N n) k = N.testBit k := by
  rw [bitAt, bytesN, getD_map_range _ _ _ _ (by omega), BitVec.getLsbD_ofNat]
  show (decide (k % 8 < 8) && (N >>> (8 * (k / 8))).testBit (k % 8)) = _
  rw [Nat.testBit_shiftRight, show 8 * (k / 8) + k % 8 = k by omega]
  simp; omega

theorem drop_bytesN (N n d : Nat) : (bytesN N n).drop d = bytesN (N >>> (8 * d)) (n - d) := by
  apply bytes_ext
  · simp
  · intro m hm j hj
    simp at hm
    rw [getD_drop, bytesN, bytesN, getD_map_range _ _ _ _ (by omega), getD_map_range _ _ _ _ (by omega), BitVec.getLsbD_ofNat, BitVec.getLsbD_ofNat]
    show (decide (j < 8) && (N >>> (8 * (d + m))).testBit j) = (decide (j < 8) && (N >>> (8 * d) >>> (8 * m)).testBit j)
    rw [← Nat.shiftRight_add, Nat.mul_add]

/-- The `k`-th digit of 13 bits. -/
def co (N k : Nat) : Nat := Nat.mod (Nat.shiftRight N (Nat.mul 13 k)) 8192
/-- The `k`-th digit of 10 bits. -/
def co10 (N k : Nat) : Nat := Nat.mod (Nat.shiftRight N (Nat.mul 10 k)) 1024

theorem co_lt (N k : Nat) : co N k < 8192 := Nat.mod_lt _ (by omega)

theorem unpack_bytesN (N n : Nat) (hn : 416 ≤ n) (k : Fin 256) : unpack 13 (bytesN N n) k = (co N k.val : Int) := by
  unfold unpack
  refine congrArg (Nat.cast (R := Int)) (Nat.eq_of_testBit_eq fun j => ?_)
  have := k.isLt
  show _ = ((N >>> (13 * k.val)) % 2 ^ 13).testBit j
  rw [natOfBits_testBit, Nat.testBit_mod_two_pow, Nat.testBit_shiftRight]
  by_cases hj : j < 13
  · simp only [hj, decide_true, Bool.true_and]; exact bitAt_bytesN _ _ _ (by omega)
  · simp [hj]

theorem unpackW_bytesN (w N n : Nat) (hn : 32 * w ≤ n) (k : Fin 256) : unpack w (bytesN N n) k = ((N >>> (w * k.val) % 2 ^ w : Nat) : Int) := by
  unfold unpack
  refine congrArg (Nat.cast (R := Int)) (Nat.eq_of_testBit_eq fun j => ?_)
  have := Nat.mul_le_mul_left w (Nat.succ_le_of_lt k.isLt)
  rw [Nat.mul_succ] at this
  rw [natOfBits_testBit, Nat.testBit_mod_two_pow, Nat.testBit_shiftRight]
  by_cases hj : j < w
  · simp only [hj, decide_true, Bool.true_and]; exact bitAt_bytesN _ _ _ (by omega)
  · simp [hj]

theorem packW_bytesN (w : Nat) (hw : 0 < w) (N : Nat) (p : Poly) (h : ∀ k : Fin 256, p k % 2 ^ w = ((N >>> (w * k.val) % 2 ^ w : Nat) : Int)) :
    pack w p = bytesN N (32 * w) := by
  apply bytes_ext
  · simp [pack]
  · intro m hm j hj
    rw [length_pack] at hm
    rw [pack, bytesN, getD_map_range _ _ _ _ (by omega), getD_map_range _ _ _ _ (by omega), BitVec.getLsbD_ofNat, BitVec.getLsbD_ofNat, natOfBits_testBit]
    simp only [hj, decide_true, Bool.true_and]
    have hk : (8 * m + j) / w < 256 := by rw [Nat.div_lt_iff_lt_mul hw]; omega
    have e : ((Fin.ofNat 256 ((8 * m + j) / w)).val) = (8 * m + j) / w := Nat.mod_eq_of_lt hk
    have hmod := Nat.mod_lt (8 * m + j) hw
    show _ = (N >>> (8 * m)).testBit j
    rw [streamBit, ← intBit_mod _ w _ hmod, h, e, intBit_natCast, Nat.testBit_mod_two_pow, Nat.testBit_shiftRight, Nat.testBit_shiftRight,
      Nat.div_add_mod]
    simp [hmod]

theorem pack_bytesN (N : Nat) (p : Poly) (h : ∀ k : Fin 256, p k = (co10 N k.val : Int)) : pack 10 p = bytesN N 320 :=
  packW_bytesN 10 (by omega) N p fun k => by
    have e : co10 N k.val = N >>> (10 * k.val) % 2 ^ 10 := rfl
    rw [h, ← e]
    have : co10 N k.val < 1024 := Nat.mod_lt _ (by omega)
    omega

/-! ### Polynomials as numbers -/

/-- Check of a predicate for all numbers below `n`. -/
noncomputable def allN (f : Nat → Bool) (n : Nat) : Bool := Nat.rec true (fun k acc => bif f k then acc else false) n

theorem allN_spec (f : Nat → Bool) : ∀ n, allN f n = true → ∀ k < n, f k = true
  | 0, _, _, hk => absurd hk (by omega)
  | n + 1, h, k, hk => by
    have h' : (bif f n then allN f n else false) = true := h
    cases hf : f n with
    | false => rw [hf] at h'; cases h'
    | true =>
      rw [hf] at h'
      rcases Nat.lt_succ_iff_lt_or_eq.1 hk with h1 | rfl
      · exact allN_spec f n h' k h1
      · exact hf

/-- The digits of `N` are the coefficients of `p` modulo `2^13`. -/
def Rep (N : Nat) (p : Poly) : Prop := ∀ k : Fin 256, p k % 8192 = (co N k.val : Int)

theorem pack_rep {N : Nat} {p : Poly} (h : Rep N p) : pack 13 p = bytesN N 416 := packW_bytesN 13 (by omega) N p fun k => by
  have e : (co N k.val : Int) = ((N >>> (13 * k.val) % 2 ^ 13 : Nat) : Int) := rfl
  rw [← e, ← h k]; rfl

/-- Summand `i` of coefficient `k` of a product. -/
def mulTerm (a b k i : Nat) : Nat :=
  Nat.mul (co a i) (bif Nat.ble i k then co b (Nat.sub k i) else Nat.sub 8192 (co b (Nat.sub (Nat.add 256 k) i)))

/-- Sum of the first `n` summands of coefficient `k` of a product. -/
noncomputable def dotN (a b k n : Nat) : Nat := Nat.rec 0 (fun i acc => Nat.add acc (mulTerm a b k i)) n

theorem dotN_eq (a b k : Nat) : ∀ n, dotN a b k n = ∑ i ∈ Finset.range n, mulTerm a b k i
  | 0 => rfl
  | n + 1 => by rw [Finset.sum_range_succ, ← dotN_eq a b k n]; rfl

theorem Rep.cast {N : Nat} {p : Poly} (h : Rep N p) (k : Fin 256) : ((p k : Int) : ZMod 8192) = ((co N k.val : Nat) : ZMod 8192) := by
  have := congrArg (fun x : Int => (x : ZMod 8192)) (h k)
  simp only [Int.cast_natCast] at this
  rw [← this, show (8192 : Int) = ((8192 : Nat) : Int) from rfl, ZMod.intCast_mod]

theorem negMul_rep {a b : Nat} {p q : Poly} (ha : Rep a p) (hb : Rep b q) (k : Fin 256) :
    ((negMul p q k : Int) : ZMod 8192) = ((dotN a b k.val 256 : Nat) : ZMod 8192) := by
  rw [dotN_eq, Finset.sum_range, negMul]
  push_cast
  refine Finset.sum_congr rfl fun i _ => ?_
  have hi := i.isLt
  have hk := k.isLt
  rw [ha.cast, hb.cast, mulTerm]
  by_cases h : i ≤ k
  · have e : (k - i).val = k.val - i.val := Fin.sub_val_of_le h
    have hble : Nat.ble i.val k.val = true := Nat.ble_eq_true_of_le h
    rw [e, if_pos h, hble]
    show _ = ((co a i.val * co b (k.val - i.val) : Nat) : ZMod 8192)
    push_cast; ring
  · have h' : k.val < i.val := by simpa using h
    have e : (k - i).val = 256 + k.val - i.val := by rw [Fin.sub_def]; show (256 - i.val + k.val) % 256 = _; omega
    have hble : Nat.ble i.val k.val = false := by rw [Bool.eq_false_iff]; intro hh; have := Nat.le_of_ble_eq_true hh; omega
    rw [e, if_neg h, hble]
    show _ = ((co a i.val * (8192 - co b (256 + k.val - i.val)) : Nat) : ZMod 8192)
    have := co_lt b (256 + k.val - i.val)
    rw [Nat.cast_mul, Nat.cast_sub (by omega)]
    have h0 : ((8192 : Nat) : ZMod 8192) = 0 := ZMod.natCast_self 8192
    rw [h0]
    ring

/-- Check that `c` is `a0 * b0 + a1 * b1`. -/
noncomputable def check2 (a0 b0 a1 b1 c : Nat) : Bool :=
  allN (fun k => Nat.beq (Nat.mod (Nat.add (dotN a0 b0 k 256) (dotN a1 b1 k 256)) 8192) (co c k)) 256

theorem rep2 {a0 b0 a1 b1 c : Nat} {p q : Fin 2 → Poly} (h : check2 a0 b0 a1 b1 c = true) (ha0 : Rep a0 (p 0)) (hb0 : Rep b0 (q 0)) (ha1 : Rep a1 (p 1))
    (hb1 : Rep b1 (q 1)) : Rep c (innerProd p q) := by
  intro k
  have h1 := Nat.eq_of_beq_eq_true (allN_spec _ _ h k.val k.isLt)
  have h2 : ((innerProd p q k : Int) : ZMod 8192) = (((dotN a0 b0 k.val 256 + dotN a1 b1 k.val 256 : Nat) : Int) : ZMod 8192) := by
    rw [innerProd, Fin.sum_univ_two]
    push_cast
    rw [negMul_rep ha0 hb0, negMul_rep ha1 hb1]
  have h3 := (ZMod.intCast_eq_intCast_iff' _ _ _).1 h2
  rw [← h1]
  exact h3

/-- Check of `roundErr`. -/
noncomputable def checkErr (x e : Nat) : Bool :=
  allN (fun k => Nat.beq (Nat.mod (Nat.sub 8196 (Nat.mod (Nat.add (co x k) 4) 8)) 8192) (co e k)) 256

theorem rep_err {x e : Nat} {p : Poly} (h : checkErr x e = true) (hp : Rep x p) : Rep e (roundErr p) := by
  intro k
  have h1 : (8196 - (co x k.val + 4) % 8) % 8192 = co e k.val := Nat.eq_of_beq_eq_true (allN_spec _ _ h k.val k.isLt)
  have h2 := hp k
  rw [roundErr]
  omega

/-- Check of `roundP`; the result has digits of 10 bits. -/
noncomputable def checkRound (x r : Nat) : Bool :=
  allN (fun k => Nat.beq (Nat.div (Nat.mod (Nat.add (co x k) 4) 8192) 8) (co10 r k)) 256

theorem rep_round {x r : Nat} {p : Poly} (h : checkRound x r = true) (hp : Rep x p) (k : Fin 256) : roundP p k = (co10 r k.val : Int) := by
  have h1 : (co x k.val + 4) % 8192 / 8 = co10 r k.val := Nat.eq_of_beq_eq_true (allN_spec _ _ h k.val k.isLt)
  have h2 := hp k
  rw [roundP, h1.symm, h1]
  unfold Spec.h1
  omega

/-- Check that two numbers have the same digits, of 10 and 13 bits. -/
noncomputable def checkSame (r x : Nat) : Bool := allN (fun k => Nat.beq (co10 r k) (co x k)) 256

theorem rep_same {r x : Nat} {p : Poly} (h : checkSame r x = true) (hp : ∀ k : Fin 256, p k = (co10 r k.val : Int)) : Rep x p := by
  intro k
  have h1 : co10 r k.val = co x k.val := Nat.eq_of_beq_eq_true (allN_spec _ _ h k.val k.isLt)
  have := co_lt x k.val
  rw [hp k]
  omega

/-- Check of a secret polynomial of LightSaber. -/
noncomputable def checkCbd (S x : Nat) : Bool :=
  allN (fun k => Nat.beq (Nat.mod (Nat.sub (Nat.add 8192 (hammingWeight 5 fun j => S.testBit (10 * k + j))) (hammingWeight 5 fun j => S.testBit (10 * k + 5 + j))) 8192)
    (co x k)) 256

theorem rep_cbd {S n x : Nat} (hn : 320 ≤ n) (h : checkCbd S x = true) : Rep x (centredBinomial 10 (bytesN S n)) := by
  intro k
  have hk := k.isLt
  have h1 : (8192 + (hammingWeight 5 fun j => S.testBit (10 * k.val + j)) - (hammingWeight 5 fun j => S.testBit (10 * k.val + 5 + j))) % 8192 = co x k.val :=
    Nat.eq_of_beq_eq_true (allN_spec _ _ h k.val k.isLt)
  have e1 : (hammingWeight 5 fun j => bitAt (bytesN S n) (10 * k.val + j)) = hammingWeight 5 fun j => S.testBit (10 * k.val + j) :=
    hammingWeight_congr fun j hj => bitAt_bytesN _ _ _ (by omega)
  have e2 : (hammingWeight 5 fun j => bitAt (bytesN S n) (10 * k.val + 5 + j)) = hammingWeight 5 fun j => S.testBit (10 * k.val + 5 + j) :=
    hammingWeight_congr fun j hj => bitAt_bytesN _ _ _ (by omega)
  have b : (hammingWeight 5 fun j => S.testBit (10 * k.val + 5 + j)) ≤ 5 := by
    simp only [hammingWeight, List.range_succ, List.range_zero, List.map_append, List.map_nil, List.map_cons, List.sum_append, List.sum_nil, List.sum_cons]
    have hb : ∀ b : Bool, b.toNat ≤ 1 := fun b => by cases b <;> decide
    have := hb (S.testBit (10 * k.val + 5 + 0)); have := hb (S.testBit (10 * k.val + 5 + 1)); have := hb (S.testBit (10 * k.val + 5 + 2))
    have := hb (S.testBit (10 * k.val + 5 + 3)); have := hb (S.testBit (10 * k.val + 5 + 4))
    omega
  show ((hammingWeight 5 fun j => bitAt (bytesN S n) (10 * k.val + j) : Nat) - (hammingWeight 5 fun j => bitAt (bytesN S n) (10 * k.val + 5 + j) : Nat) : Int) % 8192 = _
  rw [e1, e2]
  omega

/-- Check of the message part of a ciphertext of LightSaber; the result has digits of 3 bits. -/
noncomputable def checkEnc (v m c : Nat) : Bool :=
  allN (fun k => Nat.beq (Nat.div (Nat.mod (Nat.sub (Nat.add (co v k) 1028) (Nat.mul 512 (Nat.mod (Nat.shiftRight m (Nat.mul 1 k)) 2))) 1024) 128)
    (Nat.mod (Nat.shiftRight c (Nat.mul 3 k)) 8)) 256

theorem enc_ok {v m c n : Nat} {w : Poly} (hn : 32 ≤ n) (h : checkEnc v m c = true) (hw : Rep v w) :
    pack 3 (encodeMsg 3 w (unpack 1 (bytesN m n))) = bytesN c 96 := by
  refine packW_bytesN 3 (by omega) c _ fun k => ?_
  have h1 : (co v k.val + 1028 - 512 * (m >>> (1 * k.val) % 2)) % 1024 / 128 = c >>> (3 * k.val) % 8 :=
    Nat.eq_of_beq_eq_true (allN_spec _ _ h k.val k.isLt)
  have h2 := hw k
  have e : unpack 1 (bytesN m n) k = ((m >>> (1 * k.val) % 2 : Nat) : Int) := unpackW_bytesN 1 m n (by omega) k
  show (w k + Spec.h1 - 512 * unpack 1 (bytesN m n) k) % 1024 / 2 ^ (10 - 3) % 2 ^ 3 = ((c >>> (3 * k.val) % 8 : Nat) : Int)
  rw [e]
  have hb := Nat.mod_lt (m >>> (1 * k.val)) (show 0 < 2 by omega)
  generalize m >>> (1 * k.val) % 2 = b at *
  generalize c >>> (3 * k.val) % 8 = d at *
  rw [show (2 : Int) ^ (10 - 3) = 128 by norm_num, show (2 : Int) ^ 3 = 8 by norm_num]
  unfold Spec.h1
  omega

/-- Check of the noise of LightSaber. -/
noncomputable def checkNoise (x y v : Nat) : Bool :=
  allN (fun k => Nat.ble (Nat.mod (Nat.add (Nat.sub (Nat.add (co x k) 8192) (co y k)) (Nat.add (Nat.mul 8 (Nat.mod (Nat.add (co v k) 4) 128)) 9728)) 8192) 4095) 256

theorem noise_ok {x y v : Nat} {p q w : Poly} (h : checkNoise x y v = true) (hp : Rep x p) (hq : Rep y q) (hw : Rep v w) (k : Fin 256) :
    NoiseOk (fun k => p k - q k + 8 * cutErr 3 w k) k := by
  have h1 : (co x k.val + 8192 - co y k.val + (8 * ((co v k.val + 4) % 128) + 9728)) % 8192 ≤ 4095 :=
    Nat.le_of_ble_eq_true (allN_spec _ _ h k.val k.isLt)
  have h2 := hp k
  have h3 := hq k
  have h4 := hw k
  have := co_lt y k.val
  unfold NoiseOk cutErr Spec.h1
  norm_num
  omega

end Saber
