import Verif.Proof.U.Sha2
/-!
# `sha256.c`
-/
namespace Saber.U.Sha256
open Saber.Spec.Sha2

theorem load_ok (x : List Byte) (off : Nat) (h : off + 4 ≤ x.length) :
    load_bigendian x off = .ok (wordOfBytes 32 ((x.drop off).take 4)) := by
  unfold load_bigendian
  iterate 4 rw [rd_ok 0 (by omega), ok_bind]
  rw [drop_take_eq x 0 off 4 h, pure_eq_ok, show (List.range 4) = [0, 1, 2, 3] from rfl]
  simp only [List.map_cons, List.map_nil]
  iterate 4 rw [wordOfBytes_cons]
  rw [wordOfBytes_nil, BitVec.zero_or]
  generalize x.getD (off + 0) 0 = b0, x.getD (off + 1) 0 = b1, x.getD (off + 2) 0 = b2, x.getD (off + 3) 0 = b3
  rw [show 8 * ([] : List Byte).length = 0 from rfl, BitVec.shiftLeft_zero]
  rfl

theorem store_ok (x : List Byte) (off : Nat) (u : BitVec 32) (h : off + 4 ≤ x.length) :
    store_bigendian x off u = .ok (writeAt x off (bytesOfNat 4 u.toNat)) := by
  rw [show bytesOfNat 4 u.toNat = [BitVec.ofNat 8 (u.toNat / 256 ^ 3), BitVec.ofNat 8 (u.toNat / 256 ^ 2), BitVec.ofNat 8 (u.toNat / 256 ^ 1), BitVec.ofNat 8 (u.toNat / 256 ^ 0)] from rfl]
  unfold store_bigendian
  simp only [← BitVec.shiftRight_add, Nat.reduceAdd]
  iterate 3 rw [wr_ok (by (try simp only [List.length_set]); omega), ok_bind]
  rw [wr_ok (by (try simp only [List.length_set]); omega)]
  refine congrArg _ ?_
  simp only [byte_shift, Nat.reduceMul, BitVec.ushiftRight_zero, Nat.add_zero]
  generalize (u >>> 24).setWidth 8 = b0, (u >>> 16).setWidth 8 = b1, (u >>> 8).setWidth 8 = b2, u.setWidth 8 = b3 at *
  rw [set_eq_writeAt x (off + 3) b3 (by omega)]
  rw [← writeAt_cons x off b0 [b1, b2, b3] (by simp; omega), ← writeAt_cons x (off + 1) b1 [b2, b3] (by simp; omega), ← writeAt_cons x (off + 2) b2 [b3] (by simp; omega)]

theorem ROTR_eq (x : BitVec 32) (c : Nat) (h : c < 32) : ROTR x c = x.rotateRight c := by
  rw [ROTR, BitVec.rotateRight_def, Nat.mod_eq_of_lt h]

theorem Sigma0_eq (x : BitVec 32) : Sigma0 x = alg256.bigSigma0 x := by
  simp only [Sigma0, alg256]; iterate 3 rw [ROTR_eq _ _ (by decide)]
theorem Sigma1_eq (x : BitVec 32) : Sigma1 x = alg256.bigSigma1 x := by
  simp only [Sigma1, alg256]; iterate 3 rw [ROTR_eq _ _ (by decide)]
theorem sigma0_eq (x : BitVec 32) : sigma0 x = alg256.smallSigma0 x := by
  simp only [sigma0, alg256]; iterate 2 rw [ROTR_eq _ _ (by decide)]
theorem sigma1_eq (x : BitVec 32) : sigma1 x = alg256.smallSigma1 x := by
  simp only [sigma1, alg256]; iterate 2 rw [ROTR_eq _ _ (by decide)]

/-- The variables `a, ..., h` as working variables of the specification. -/
def V.vars (v : V) : Vars 32 := ⟨v.a, v.b, v.c, v.d, v.e, v.f, v.g, v.h⟩

theorem F_eq (W : Nat → BitVec 32) (v : V) (t : Nat) (w k : BitVec 32) (hw : w = W t) (hk : k = rootBits 3 32 t) :
    (F v w k).vars = round alg256 W v.vars t := by
  subst hw; subst hk
  obtain ⟨a, b, c, d, e, f, g, h⟩ := v
  simp only [F, V.vars, round, Sigma0_eq, Sigma1_eq]
  rfl

/-- The variables `w0, ..., w15` hold sixteen words of the message schedule. -/
def W.Holds (v : W) (S : Nat → BitVec 32) (t : Nat) : Prop :=
  v.w0 = S (t + 0) ∧ v.w1 = S (t + 1) ∧ v.w2 = S (t + 2) ∧ v.w3 = S (t + 3) ∧ v.w4 = S (t + 4) ∧ v.w5 = S (t + 5) ∧ v.w6 = S (t + 6) ∧ v.w7 = S (t + 7) ∧ v.w8 = S (t + 8) ∧ v.w9 = S (t + 9) ∧ v.w10 = S (t + 10) ∧ v.w11 = S (t + 11) ∧ v.w12 = S (t + 12) ∧ v.w13 = S (t + 13) ∧ v.w14 = S (t + 14) ∧ v.w15 = S (t + 15)

theorem EXPAND_ok (v : W) (S : Nat → BitVec 32) (t : Nat) (h : v.Holds S t)
    (hS : ∀ t, S (t + 16) = sigma1 (S (t + 14)) + S (t + 9) + sigma0 (S (t + 1)) + S t) : (EXPAND v).Holds S (t + 16) := by
  obtain ⟨h0, h1, h2, h3, h4, h5, h6, h7, h8, h9, h10, h11, h12, h13, h14, h15⟩ := h
  have e : ∀ i j, j = i + 16 → S (t + j) = sigma1 (S (t + (i + 14))) + S (t + (i + 9)) + sigma0 (S (t + (i + 1))) + S (t + i) := by
    intro i j hj
    rw [hj, ← Nat.add_assoc, hS]; rfl
  refine ⟨?_, ?_, ?_, ?_, ?_, ?_, ?_, ?_, ?_, ?_, ?_, ?_, ?_, ?_, ?_, ?_⟩ <;>
    simp only [EXPAND, Nat.add_assoc, Nat.reduceAdd, h0, h1, h2, h3, h4, h5, h6, h7, h8, h9, h10, h11, h12, h13, h14, h15, e 0 16 rfl, e 1 17 rfl, e 2 18 rfl, e 3 19 rfl, e 4 20 rfl, e 5 21 rfl, e 6 22 rfl, e 7 23 rfl, e 8 24 rfl, e 9 25 rfl, e 10 26 rfl, e 11 27 rfl, e 12 28 rfl, e 13 29 rfl, e 14 30 rfl, e 15 31 rfl]

/-- The constants of the calls of `F`. -/
def K : List (BitVec 32) := [0x428a2f98, 0x71374491, 0xb5c0fbcf, 0xe9b5dba5, 0x3956c25b, 0x59f111f1, 0x923f82a4, 0xab1c5ed5, 0xd807aa98, 0x12835b01, 0x243185be, 0x550c7dc3, 0x72be5d74, 0x80deb1fe, 0x9bdc06a7, 0xc19bf174, 0xe49b69c1, 0xefbe4786, 0x0fc19dc6, 0x240ca1cc, 0x2de92c6f, 0x4a7484aa, 0x5cb0a9dc, 0x76f988da, 0x983e5152, 0xa831c66d, 0xb00327c8, 0xbf597fc7, 0xc6e00bf3, 0xd5a79147, 0x06ca6351, 0x14292967, 0x27b70a85, 0x2e1b2138, 0x4d2c6dfc, 0x53380d13, 0x650a7354, 0x766a0abb, 0x81c2c92e, 0x92722c85, 0xa2bfe8a1, 0xa81a664b, 0xc24b8b70, 0xc76c51a3, 0xd192e819, 0xd6990624, 0xf40e3585, 0x106aa070, 0x19a4c116, 0x1e376c08, 0x2748774c, 0x34b0bcb5, 0x391c0cb3, 0x4ed8aa4a, 0x5b9cca4f, 0x682e6ff3, 0x748f82ee, 0x78a5636f, 0x84c87814, 0x8cc70208, 0x90befffa, 0xa4506ceb, 0xbef9a3f7, 0xc67178f2]

theorem K_eq : K = (List.range 64).map (rootBits 3 32) := by decide +kernel

theorem K_get (t : Nat) (h : t < 64) : K.getD t 0 = rootBits 3 32 t := by
  rw [K_eq, getD_map_range _ _ _ _ h]

theorem rounds0_ok (v : V) (w : W) (S : Nat → BitVec 32) (h : w.Holds S 0) :
    (rounds0 v w).vars = (List.range' 0 16).foldl (round alg256 S) v.vars := by
  obtain ⟨h0, h1, h2, h3, h4, h5, h6, h7, h8, h9, h10, h11, h12, h13, h14, h15⟩ := h
  rw [show List.range' 0 16 = [0, 1, 2, 3, 4, 5, 6, 7, 8, 9, 10, 11, 12, 13, 14, 15] from rfl]
  unfold rounds0
  simp only [List.foldl_cons, List.foldl_nil]
  rw [F_eq S _ 15 _ _ h15 (show (0xc19bf174 : BitVec 32) = _ from K_get 15 (by decide)), F_eq S _ 14 _ _ h14 (show (0x9bdc06a7 : BitVec 32) = _ from K_get 14 (by decide)), F_eq S _ 13 _ _ h13 (show (0x80deb1fe : BitVec 32) = _ from K_get 13 (by decide)), F_eq S _ 12 _ _ h12 (show (0x72be5d74 : BitVec 32) = _ from K_get 12 (by decide)), F_eq S _ 11 _ _ h11 (show (0x550c7dc3 : BitVec 32) = _ from K_get 11 (by decide)), F_eq S _ 10 _ _ h10 (show (0x243185be : BitVec 32) = _ from K_get 10 (by decide)), F_eq S _ 9 _ _ h9 (show (0x12835b01 : BitVec 32) = _ from K_get 9 (by decide)), F_eq S _ 8 _ _ h8 (show (0xd807aa98 : BitVec 32) = _ from K_get 8 (by decide)), F_eq S _ 7 _ _ h7 (show (0xab1c5ed5 : BitVec 32) = _ from K_get 7 (by decide)), F_eq S _ 6 _ _ h6 (show (0x923f82a4 : BitVec 32) = _ from K_get 6 (by decide)), F_eq S _ 5 _ _ h5 (show (0x59f111f1 : BitVec 32) = _ from K_get 5 (by decide)), F_eq S _ 4 _ _ h4 (show (0x3956c25b : BitVec 32) = _ from K_get 4 (by decide)), F_eq S _ 3 _ _ h3 (show (0xe9b5dba5 : BitVec 32) = _ from K_get 3 (by decide)), F_eq S _ 2 _ _ h2 (show (0xb5c0fbcf : BitVec 32) = _ from K_get 2 (by decide)), F_eq S _ 1 _ _ h1 (show (0x71374491 : BitVec 32) = _ from K_get 1 (by decide)), F_eq S _ 0 _ _ h0 (show (0x428a2f98 : BitVec 32) = _ from K_get 0 (by decide))]

theorem rounds1_ok (v : V) (w : W) (S : Nat → BitVec 32) (h : w.Holds S 16) :
    (rounds1 v w).vars = (List.range' 16 16).foldl (round alg256 S) v.vars := by
  obtain ⟨h0, h1, h2, h3, h4, h5, h6, h7, h8, h9, h10, h11, h12, h13, h14, h15⟩ := h
  rw [show List.range' 16 16 = [16, 17, 18, 19, 20, 21, 22, 23, 24, 25, 26, 27, 28, 29, 30, 31] from rfl]
  unfold rounds1
  simp only [List.foldl_cons, List.foldl_nil]
  rw [F_eq S _ 31 _ _ h15 (show (0x14292967 : BitVec 32) = _ from K_get 31 (by decide)), F_eq S _ 30 _ _ h14 (show (0x06ca6351 : BitVec 32) = _ from K_get 30 (by decide)), F_eq S _ 29 _ _ h13 (show (0xd5a79147 : BitVec 32) = _ from K_get 29 (by decide)), F_eq S _ 28 _ _ h12 (show (0xc6e00bf3 : BitVec 32) = _ from K_get 28 (by decide)), F_eq S _ 27 _ _ h11 (show (0xbf597fc7 : BitVec 32) = _ from K_get 27 (by decide)), F_eq S _ 26 _ _ h10 (show (0xb00327c8 : BitVec 32) = _ from K_get 26 (by decide)), F_eq S _ 25 _ _ h9 (show (0xa831c66d : BitVec 32) = _ from K_get 25 (by decide)), F_eq S _ 24 _ _ h8 (show (0x983e5152 : BitVec 32) = _ from K_get 24 (by decide)), F_eq S _ 23 _ _ h7 (show (0x76f988da : BitVec 32) = _ from K_get 23 (by decide)), F_eq S _ 22 _ _ h6 (show (0x5cb0a9dc : BitVec 32) = _ from K_get 22 (by decide)), F_eq S _ 21 _ _ h5 (show (0x4a7484aa : BitVec 32) = _ from K_get 21 (by decide)), F_eq S _ 20 _ _ h4 (show (0x2de92c6f : BitVec 32) = _ from K_get 20 (by decide)), F_eq S _ 19 _ _ h3 (show (0x240ca1cc : BitVec 32) = _ from K_get 19 (by decide)), F_eq S _ 18 _ _ h2 (show (0x0fc19dc6 : BitVec 32) = _ from K_get 18 (by decide)), F_eq S _ 17 _ _ h1 (show (0xefbe4786 : BitVec 32) = _ from K_get 17 (by decide)), F_eq S _ 16 _ _ h0 (show (0xe49b69c1 : BitVec 32) = _ from K_get 16 (by decide))]

theorem rounds2_ok (v : V) (w : W) (S : Nat → BitVec 32) (h : w.Holds S 32) :
    (rounds2 v w).vars = (List.range' 32 16).foldl (round alg256 S) v.vars := by
  obtain ⟨h0, h1, h2, h3, h4, h5, h6, h7, h8, h9, h10, h11, h12, h13, h14, h15⟩ := h
  rw [show List.range' 32 16 = [32, 33, 34, 35, 36, 37, 38, 39, 40, 41, 42, 43, 44, 45, 46, 47] from rfl]
  unfold rounds2
  simp only [List.foldl_cons, List.foldl_nil]
  rw [F_eq S _ 47 _ _ h15 (show (0x106aa070 : BitVec 32) = _ from K_get 47 (by decide)), F_eq S _ 46 _ _ h14 (show (0xf40e3585 : BitVec 32) = _ from K_get 46 (by decide)), F_eq S _ 45 _ _ h13 (show (0xd6990624 : BitVec 32) = _ from K_get 45 (by decide)), F_eq S _ 44 _ _ h12 (show (0xd192e819 : BitVec 32) = _ from K_get 44 (by decide)), F_eq S _ 43 _ _ h11 (show (0xc76c51a3 : BitVec 32) = _ from K_get 43 (by decide)), F_eq S _ 42 _ _ h10 (show (0xc24b8b70 : BitVec 32) = _ from K_get 42 (by decide)), F_eq S _ 41 _ _ h9 (show (0xa81a664b : BitVec 32) = _ from K_get 41 (by decide)), F_eq S _ 40 _ _ h8 (show (0xa2bfe8a1 : BitVec 32) = _ from K_get 40 (by decide)), F_eq S _ 39 _ _ h7 (show (0x92722c85 : BitVec 32) = _ from K_get 39 (by decide)), F_eq S _ 38 _ _ h6 (show (0x81c2c92e : BitVec 32) = _ from K_get 38 (by decide)), F_eq S _ 37 _ _ h5 (show (0x766a0abb : BitVec 32) = _ from K_get 37 (by decide)), F_eq S _ 36 _ _ h4 (show (0x650a7354 : BitVec 32) = _ from K_get 36 (by decide)), F_eq S _ 35 _ _ h3 (show (0x53380d13 : BitVec 32) = _ from K_get 35 (by decide)), F_eq S _ 34 _ _ h2 (show (0x4d2c6dfc : BitVec 32) = _ from K_get 34 (by decide)), F_eq S _ 33 _ _ h1 (show (0x2e1b2138 : BitVec 32) = _ from K_get 33 (by decide)), F_eq S _ 32 _ _ h0 (show (0x27b70a85 : BitVec 32) = _ from K_get 32 (by decide))]

theorem rounds3_ok (v : V) (w : W) (S : Nat → BitVec 32) (h : w.Holds S 48) :
    (rounds3 v w).vars = (List.range' 48 16).foldl (round alg256 S) v.vars := by
  obtain ⟨h0, h1, h2, h3, h4, h5, h6, h7, h8, h9, h10, h11, h12, h13, h14, h15⟩ := h
  rw [show List.range' 48 16 = [48, 49, 50, 51, 52, 53, 54, 55, 56, 57, 58, 59, 60, 61, 62, 63] from rfl]
  unfold rounds3
  simp only [List.foldl_cons, List.foldl_nil]
  rw [F_eq S _ 63 _ _ h15 (show (0xc67178f2 : BitVec 32) = _ from K_get 63 (by decide)), F_eq S _ 62 _ _ h14 (show (0xbef9a3f7 : BitVec 32) = _ from K_get 62 (by decide)), F_eq S _ 61 _ _ h13 (show (0xa4506ceb : BitVec 32) = _ from K_get 61 (by decide)), F_eq S _ 60 _ _ h12 (show (0x90befffa : BitVec 32) = _ from K_get 60 (by decide)), F_eq S _ 59 _ _ h11 (show (0x8cc70208 : BitVec 32) = _ from K_get 59 (by decide)), F_eq S _ 58 _ _ h10 (show (0x84c87814 : BitVec 32) = _ from K_get 58 (by decide)), F_eq S _ 57 _ _ h9 (show (0x78a5636f : BitVec 32) = _ from K_get 57 (by decide)), F_eq S _ 56 _ _ h8 (show (0x748f82ee : BitVec 32) = _ from K_get 56 (by decide)), F_eq S _ 55 _ _ h7 (show (0x682e6ff3 : BitVec 32) = _ from K_get 55 (by decide)), F_eq S _ 54 _ _ h6 (show (0x5b9cca4f : BitVec 32) = _ from K_get 54 (by decide)), F_eq S _ 53 _ _ h5 (show (0x4ed8aa4a : BitVec 32) = _ from K_get 53 (by decide)), F_eq S _ 52 _ _ h4 (show (0x391c0cb3 : BitVec 32) = _ from K_get 52 (by decide)), F_eq S _ 51 _ _ h3 (show (0x34b0bcb5 : BitVec 32) = _ from K_get 51 (by decide)), F_eq S _ 50 _ _ h2 (show (0x2748774c : BitVec 32) = _ from K_get 50 (by decide)), F_eq S _ 49 _ _ h1 (show (0x1e376c08 : BitVec 32) = _ from K_get 49 (by decide)), F_eq S _ 48 _ _ h0 (show (0x19a4c116 : BitVec 32) = _ from K_get 48 (by decide))]

theorem V.add_vars (v s : V) : (v.add s).vars = v.vars.add s.vars := rfl

theorem block_ok (v : V) (inp : List Byte) (off : Nat) (h : off + 64 ≤ inp.length) :
    Ok (block v inp off) fun v' => v'.vars = compress alg256 v.vars ((inp.drop off).take 64) := by
  unfold block
  iterate 16 rw [load_ok _ _ (by omega), ok_bind]
  refine Ok.pure ?_
  have hs : ∀ i, i < 16 → wordOfBytes 32 ((inp.drop (off + 4 * i)).take 4) = schedule alg256 ((inp.drop off).take 64) i := by
    intro i hi
    rw [schedule_lt _ _ _ hi, show 32 / 8 = 4 from rfl, List.drop_take, List.take_take, List.drop_drop,
      Nat.min_eq_left (by omega)]
  have h0 : W.Holds ⟨wordOfBytes 32 ((inp.drop (off + 0)).take 4), wordOfBytes 32 ((inp.drop (off + 4)).take 4), wordOfBytes 32 ((inp.drop (off + 8)).take 4), wordOfBytes 32 ((inp.drop (off + 12)).take 4), wordOfBytes 32 ((inp.drop (off + 16)).take 4), wordOfBytes 32 ((inp.drop (off + 20)).take 4), wordOfBytes 32 ((inp.drop (off + 24)).take 4), wordOfBytes 32 ((inp.drop (off + 28)).take 4), wordOfBytes 32 ((inp.drop (off + 32)).take 4), wordOfBytes 32 ((inp.drop (off + 36)).take 4), wordOfBytes 32 ((inp.drop (off + 40)).take 4), wordOfBytes 32 ((inp.drop (off + 44)).take 4), wordOfBytes 32 ((inp.drop (off + 48)).take 4), wordOfBytes 32 ((inp.drop (off + 52)).take 4), wordOfBytes 32 ((inp.drop (off + 56)).take 4), wordOfBytes 32 ((inp.drop (off + 60)).take 4)⟩
      (schedule alg256 ((inp.drop off).take 64)) 0 :=
    ⟨hs 0 (by decide), hs 1 (by decide), hs 2 (by decide), hs 3 (by decide), hs 4 (by decide), hs 5 (by decide), hs 6 (by decide), hs 7 (by decide), hs 8 (by decide), hs 9 (by decide), hs 10 (by decide), hs 11 (by decide), hs 12 (by decide), hs 13 (by decide), hs 14 (by decide), hs 15 (by decide)⟩
  revert h0
  generalize W.mk (wordOfBytes 32 ((inp.drop (off + 0)).take 4)) (wordOfBytes 32 ((inp.drop (off + 4)).take 4)) (wordOfBytes 32 ((inp.drop (off + 8)).take 4)) (wordOfBytes 32 ((inp.drop (off + 12)).take 4)) (wordOfBytes 32 ((inp.drop (off + 16)).take 4)) (wordOfBytes 32 ((inp.drop (off + 20)).take 4)) (wordOfBytes 32 ((inp.drop (off + 24)).take 4)) (wordOfBytes 32 ((inp.drop (off + 28)).take 4)) (wordOfBytes 32 ((inp.drop (off + 32)).take 4)) (wordOfBytes 32 ((inp.drop (off + 36)).take 4)) (wordOfBytes 32 ((inp.drop (off + 40)).take 4)) (wordOfBytes 32 ((inp.drop (off + 44)).take 4)) (wordOfBytes 32 ((inp.drop (off + 48)).take 4)) (wordOfBytes 32 ((inp.drop (off + 52)).take 4)) (wordOfBytes 32 ((inp.drop (off + 56)).take 4)) (wordOfBytes 32 ((inp.drop (off + 60)).take 4)) = w
  intro h0
  have hrec : ∀ t, (schedule alg256 ((inp.drop off).take 64) (t + 16) : BitVec 32) = _ := schedule_add alg256 ((inp.drop off).take 64)
  simp only [← sigma1_eq, ← sigma0_eq] at hrec
  have h1 := EXPAND_ok _ _ _ h0 hrec
  have h2 := EXPAND_ok _ _ _ h1 hrec
  have h3 := EXPAND_ok _ _ _ h2 hrec
  rw [V.add_vars, rounds3_ok _ _ _ h3, rounds2_ok _ _ _ h2, rounds1_ok _ _ _ h1, rounds0_ok _ _ _ h0]
  rw [compress, show List.range alg256.rounds = List.range' 0 16 ++ List.range' 16 16 ++ List.range' 32 16 ++ List.range' 48 16 from rfl]
  simp only [List.foldl_append]

theorem process_block (H : Vars 32) (inp : List Byte) (off k : Nat) (h : off + 64 * (k + 1) ≤ inp.length) :
    process alg256 (compress alg256 H ((inp.drop off).take 64)) ((inp.drop (off + 64)).take (64 * k))
      = process alg256 H ((inp.drop off).take (64 * (k + 1))) := by
  have e : (inp.drop off).take (64 * (k + 1)) = (inp.drop off).take 64 ++ (inp.drop (off + 64)).take (64 * k) := by
    rw [show 64 * (k + 1) = 64 + 64 * k by omega, List.take_add, List.drop_drop]
  rw [e, process_append _ _ _ _ 1 (by decide) (by rw [show 16 * (32 / 8) * 1 = 64 from rfl, List.length_take, List.length_drop]; omega),
    process_one _ _ ((inp.drop off).take 64) (by decide) (by rw [show 16 * (32 / 8) = 64 from rfl, List.length_take, List.length_drop]; omega)]

theorem blockLoop_ok (inp : List Byte) (q : Nat) (hq : q < 64) : ∀ (k : Nat) (v : V) (off : Nat), off + 64 * k ≤ inp.length →
    Ok (blockLoop v inp off (64 * k + q)) fun v' => v'.vars = process alg256 v.vars ((inp.drop off).take (64 * k))
  | 0, v, off, _ => by
    rw [blockLoop, if_neg (by omega)]
    exact Ok.pure (by rw [Nat.mul_zero, List.take_zero, process_nil])
  | k + 1, v, off, h => by
    rw [blockLoop, if_pos (by omega)]
    refine (block_ok v inp off (by omega)).bind fun v' hv' => ?_
    rw [show 64 * (k + 1) + q - 64 = 64 * k + q by omega]
    refine (blockLoop_ok inp q hq k v' (off + 64) (by omega)).mono fun v'' hv'' => ?_
    rw [hv'', hv', process_block _ _ _ _ h]

theorem length_bytes (H : Vars 32) : H.bytes.length = 32 := by
  simp only [Vars.bytes, List.flatMap_cons, List.flatMap_nil, List.length_append, length_bytesOfNat, List.length_nil]

theorem word_bytes (x : BitVec 32) : wordOfBytes 32 (bytesOfNat 4 x.toNat) = x := by
  rw [show bytesOfNat 4 x.toNat = [BitVec.ofNat 8 (x.toNat / 256 ^ 3), BitVec.ofNat 8 (x.toNat / 256 ^ 2), BitVec.ofNat 8 (x.toNat / 256 ^ 1), BitVec.ofNat 8 (x.toNat / 256 ^ 0)] from rfl]
  have hx := x.isLt
  apply BitVec.eq_of_toNat_eq
  simp only [wordOfBytes, List.foldl_cons, List.foldl_nil, BitVec.toNat_ofNat, Nat.reducePow]
  omega

/-- Reading back the `i`-th word of a hash value. -/
theorem word_of_bytes (H : Vars 32) : 
    wordOfBytes 32 ((H.bytes.drop 0).take 4) = H.a ∧ wordOfBytes 32 ((H.bytes.drop 4).take 4) = H.b ∧ wordOfBytes 32 ((H.bytes.drop 8).take 4) = H.c ∧ wordOfBytes 32 ((H.bytes.drop 12).take 4) = H.d ∧ wordOfBytes 32 ((H.bytes.drop 16).take 4) = H.e ∧ wordOfBytes 32 ((H.bytes.drop 20).take 4) = H.f ∧ wordOfBytes 32 ((H.bytes.drop 24).take 4) = H.g ∧ wordOfBytes 32 ((H.bytes.drop 28).take 4) = H.h := by
  obtain ⟨a, b, c, d, e, f, g, h⟩ := H
  simp only [Vars.bytes, List.flatMap_cons, List.flatMap_nil, List.append_nil, show 32 / 8 = 4 from rfl]
  refine ⟨?_, ?_, ?_, ?_, ?_, ?_, ?_, ?_⟩
  all_goals
    simp only [List.drop_append, List.take_append, length_bytesOfNat, Nat.reduceSub, Nat.reduceLeDiff, List.drop_of_length_le,
      List.drop_zero, List.take_zero, List.nil_append, List.append_nil, Nat.sub_self, Nat.zero_sub]
    rw [List.take_of_length_le (by rw [length_bytesOfNat]), word_bytes]

theorem store_next (x us : List Byte) (u : BitVec 32) (n : Nat) (hn : us.length = n) (h : n + 4 ≤ x.length) :
    store_bigendian (writeAt x 0 us) n u = .ok (writeAt x 0 (us ++ bytesOfNat 4 u.toNat)) := by
  rw [store_ok _ _ _ (by rw [length_writeAt _ _ _ (by omega)]; exact h), writeAt_next _ _ _ _ hn (by rw [length_bytesOfNat]; exact h)]

theorem blocks_ok (H : Vars 32) (inp : List Byte) (off k q : Nat) (hq : q < 64) (h : off + 64 * k ≤ inp.length) :
    blocks H.bytes inp off (64 * k + q) = .ok (process alg256 H ((inp.drop off).take (64 * k))).bytes := by
  have hl := length_bytes H
  obtain ⟨ea, eb, ec, ed, ee, ef, eg, eh⟩ := word_of_bytes H
  unfold blocks
  iterate 8 rw [load_ok _ _ (by omega), ok_bind]
  rw [ea, eb, ec, ed, ee, ef, eg, eh]
  obtain ⟨v, hv, hvv⟩ := blockLoop_ok inp q hq k ⟨H.a, H.b, H.c, H.d, H.e, H.f, H.g, H.h⟩ off h
  rw [hv, ok_bind]
  have hvars : V.vars ⟨H.a, H.b, H.c, H.d, H.e, H.f, H.g, H.h⟩ = H := rfl
  rw [hvars] at hvv
  rw [← hvv]
  obtain ⟨a, b, c, d, e, f, g, h'⟩ := v
  have hx : H.bytes = writeAt H.bytes 0 [] := (writeAt_nil _ _).symm
  have st := store_next H.bytes
  simp only [hl] at st
  dsimp only
  rw [hx]
  iterate 7 rw [st _ _ _ (by rfl) (by decide), ok_bind]
  rw [st _ _ _ (by simp only [List.length_append, length_bytesOfNat, List.length_nil]) (by decide), writeAt_full]
  · simp only [V.vars, Vars.bytes, List.flatMap_cons, List.flatMap_nil, List.append_nil, List.nil_append, List.append_assoc]
  · simp only [hl, List.length_append, length_bytesOfNat, List.length_nil]


theorem iv_eq : iv = (init 32).bytes := by decide +kernel

/-- The length field as the code writes it. -/
def lenBytes (inlen : Nat) : List Byte := [(BitVec.ofNat 64 inlen <<< 3 >>> 56).setWidth 8, (BitVec.ofNat 64 inlen <<< 3 >>> 48).setWidth 8, (BitVec.ofNat 64 inlen <<< 3 >>> 40).setWidth 8, (BitVec.ofNat 64 inlen <<< 3 >>> 32).setWidth 8, (BitVec.ofNat 64 inlen <<< 3 >>> 24).setWidth 8, (BitVec.ofNat 64 inlen <<< 3 >>> 16).setWidth 8, (BitVec.ofNat 64 inlen <<< 3 >>> 8).setWidth 8, (BitVec.ofNat 64 inlen <<< 3).setWidth 8]

theorem lenBytes_eq (inlen : Nat) (h : inlen < 2 ^ 61) : lenBytes inlen = bytesOfNat 8 (8 * inlen) := by
  have e : 8 * inlen = (BitVec.ofNat 64 inlen <<< 3).toNat := by
    rw [BitVec.toNat_shiftLeft, BitVec.toNat_ofNat, Nat.shiftLeft_eq]; omega
  rw [e, show ∀ x, bytesOfNat 8 x = [BitVec.ofNat 8 (x / 256 ^ 7), BitVec.ofNat 8 (x / 256 ^ 6), BitVec.ofNat 8 (x / 256 ^ 5),
    BitVec.ofNat 8 (x / 256 ^ 4), BitVec.ofNat 8 (x / 256 ^ 3), BitVec.ofNat 8 (x / 256 ^ 2), BitVec.ofNat 8 (x / 256 ^ 1),
    BitVec.ofNat 8 (x / 256 ^ 0)] from fun _ => rfl]
  simp only [byte_shift, Nat.reduceMul, BitVec.ushiftRight_zero]
  rfl

end Saber.U.Sha256

namespace Saber.U
open Saber.Spec.Sha2 Saber.U.Sha256

theorem sha256_ok (out : List Byte) (outOff : Nat) (inp : List Byte) (inOff inlen : Nat) (ho : outOff + 32 ≤ out.length)
    (hi : inOff + inlen ≤ inp.length) (hlen : inlen < 2 ^ 61) :
    sha256 out outOff inp inOff inlen = .ok (writeAt out outOff (Spec.Sha2.sha256 ((inp.drop inOff).take inlen))) := by
  unfold sha256
  have hiv : iv.length = 32 := by rw [iv_eq, length_bytes]
  have hc := memcpy_ok (uninit 8 70 32) 0 iv 0 32 (by omega) (by rw [length_uninit])
  unfold memcpy at hc
  simp only [Nat.zero_add] at hc
  rw [hc, ok_bind, List.drop_zero, List.take_of_length_le (by omega), writeAt_full _ _ (by rw [length_uninit, hiv]), iv_eq]
  obtain ⟨k, q, hq, rfl⟩ : ∃ k q, q < 64 ∧ inlen = 64 * k + q := ⟨inlen / 64, inlen % 64, by omega, by omega⟩
  rw [blocks_ok (init 32) inp inOff k q hq (by omega), ok_bind]
  simp only [show (64 * k + q) % 64 = q by omega, show inOff + (64 * k + q) - q = inOff + 64 * k by omega]
  have hMl : ((inp.drop inOff).take (64 * k + q)).length = 64 * k + q := by rw [List.length_take, List.length_drop]; omega
  have hM1 : (inp.drop inOff).take (64 * k) = ((inp.drop inOff).take (64 * k + q)).take (64 * k) := by
    rw [List.take_take, Nat.min_eq_left (by omega)]
  have hr : ((inp.drop inOff).take (64 * k + q)).drop (64 * k) = (inp.drop (inOff + 64 * k)).take q := by
    rw [List.drop_take, List.drop_drop, show 64 * k + q - 64 * k = q by omega]
  have hp := memcpy_ok (uninit 8 71 128) 0 inp (inOff + 64 * k) q (by omega) (by rw [length_uninit]; omega)
  unfold memcpy at hp
  simp only [Nat.zero_add] at hp
  rw [hp, ok_bind, hM1]
  have hrl : ((inp.drop (inOff + 64 * k)).take q).length = q := by rw [List.length_take, List.length_drop]; omega
  have hP0 : (uninit 8 71 128).length = 128 := length_uninit _ _ _
  generalize (inp.drop inOff).take (64 * k + q) = M at *
  generalize (inp.drop (inOff + 64 * k)).take q = r at *
  generalize uninit 8 71 128 = P0 at *
  rw [wr_next _ _ _ _ hrl (by omega), ok_bind]
  have hl1 : (writeAt P0 0 (r ++ [0x80])).length = 128 := by
    rw [length_writeAt _ _ _ (by rw [List.length_append, hrl, List.length_singleton]; omega), hP0]
  have hfin : (loop 32 out fun i out => do
      let x ← rd (process alg256 (init 32) (pad 4 M)).bytes i
      wr out (outOff + i) x) = .ok (writeAt out outOff (Spec.Sha2.sha256 M)) := by
    have h1 := length_bytes (process alg256 (init 32) (pad 4 M))
    have h2 := memcpy_ok out outOff (process alg256 (init 32) (pad 4 M)).bytes 0 32 (by omega) ho
    unfold memcpy at h2
    simp only [Nat.zero_add] at h2
    rw [h2, List.drop_zero, List.take_of_length_le (by omega)]
    rfl
  by_cases hb : q < 56
  · rw [if_pos (by omega)]
    have hz := memset_ok (writeAt P0 0 (r ++ [0x80])) (q + 1) (0 : Byte) (56 - (q + 1)) (by rw [hl1]; omega)
    unfold memset at hz
    rw [hz, ok_bind, writeAt_next _ _ _ _ (by simp [hrl]) (by rw [List.length_replicate]; omega)]
    iterate 8 rw [wr_next _ _ _ _ (by simp only [List.length_append, List.length_replicate, List.length_singleton, hrl]; omega) (by omega), ok_bind]
    have hpad : pad 4 M = M.take (64 * k) ++ (r ++ [0x80] ++ List.replicate (56 - (q + 1)) 0 ++ lenBytes (64 * k + q)) := by
      rw [pad, hMl, show (16 * 4 - (64 * k + q + 1 + 2 * 4) % (16 * 4)) % (16 * 4) = 56 - (q + 1) by omega, show 2 * 4 = 8 from rfl,
        ← lenBytes_eq _ hlen]
      conv_lhs => rw [← List.take_append_drop (64 * k) M]
      simp only [List.append_assoc, hr]
    have hus : (r ++ [0x80] ++ List.replicate (56 - (q + 1)) 0 ++ lenBytes (64 * k + q)).length = 64 := by
      simp only [List.length_append, List.length_replicate, List.length_singleton, hrl, lenBytes, List.length_cons, List.length_nil]; omega
    have hpr : ∀ us : List Byte, us.length = 64 → blocks (process alg256 (init 32) (M.take (64 * k))).bytes (writeAt P0 0 us) 0 64
        = .ok (process alg256 (init 32) (M.take (64 * k) ++ us)).bytes := by
      intro us hu
      have := blocks_ok (process alg256 (init 32) (M.take (64 * k))) (writeAt P0 0 us) 0 1 0 (by decide)
        (by rw [length_writeAt _ _ _ (by omega)]; omega)
      rw [show 64 * 1 + 0 = 64 from rfl] at this
      rw [this, process_append _ _ _ _ k (by decide) (by rw [List.length_take, hMl]; omega), List.drop_zero,
        writeAt_prefix, List.take_append_of_le_length (l₁ := us) (by omega), List.take_of_length_le (l := us) (by omega)]
    have happ : ∀ us : List Byte, us ++ [(BitVec.ofNat 64 (64 * k + q) <<< 3 >>> 56).setWidth 8] ++ [(BitVec.ofNat 64 (64 * k + q) <<< 3 >>> 48).setWidth 8] ++ [(BitVec.ofNat 64 (64 * k + q) <<< 3 >>> 40).setWidth 8] ++ [(BitVec.ofNat 64 (64 * k + q) <<< 3 >>> 32).setWidth 8] ++ [(BitVec.ofNat 64 (64 * k + q) <<< 3 >>> 24).setWidth 8] ++ [(BitVec.ofNat 64 (64 * k + q) <<< 3 >>> 16).setWidth 8] ++ [(BitVec.ofNat 64 (64 * k + q) <<< 3 >>> 8).setWidth 8] ++ [(BitVec.ofNat 64 (64 * k + q) <<< 3).setWidth 8] = us ++ lenBytes (64 * k + q) := by
      intro us; simp only [lenBytes, List.append_assoc, List.cons_append, List.nil_append]
    rw [happ, hpr _ hus, ok_bind, ← hpad]
    exact hfin
  · rw [if_neg (by omega)]
    have hz := memset_ok (writeAt P0 0 (r ++ [0x80])) (q + 1) (0 : Byte) (120 - (q + 1)) (by rw [hl1]; omega)
    unfold memset at hz
    rw [hz, ok_bind, writeAt_next _ _ _ _ (by simp [hrl]) (by rw [List.length_replicate]; omega)]
    iterate 8 rw [wr_next _ _ _ _ (by simp only [List.length_append, List.length_replicate, List.length_singleton, hrl]; omega) (by omega), ok_bind]
    have hpad : pad 4 M = M.take (64 * k) ++ (r ++ [0x80] ++ List.replicate (120 - (q + 1)) 0 ++ lenBytes (64 * k + q)) := by
      rw [pad, hMl, show (16 * 4 - (64 * k + q + 1 + 2 * 4) % (16 * 4)) % (16 * 4) = 120 - (q + 1) by omega, show 2 * 4 = 8 from rfl,
        ← lenBytes_eq _ hlen]
      conv_lhs => rw [← List.take_append_drop (64 * k) M]
      simp only [List.append_assoc, hr]
    have hus : (r ++ [0x80] ++ List.replicate (120 - (q + 1)) 0 ++ lenBytes (64 * k + q)).length = 128 := by
      simp only [List.length_append, List.length_replicate, List.length_singleton, hrl, lenBytes, List.length_cons, List.length_nil]; omega
    have hpr : ∀ us : List Byte, us.length = 128 → blocks (process alg256 (init 32) (M.take (64 * k))).bytes (writeAt P0 0 us) 0 128
        = .ok (process alg256 (init 32) (M.take (64 * k) ++ us)).bytes := by
      intro us hu
      have := blocks_ok (process alg256 (init 32) (M.take (64 * k))) (writeAt P0 0 us) 0 2 0 (by decide)
        (by rw [length_writeAt _ _ _ (by omega)]; omega)
      rw [show 64 * 2 + 0 = 128 from rfl] at this
      rw [this, process_append _ _ _ _ k (by decide) (by rw [List.length_take, hMl]; omega), List.drop_zero,
        writeAt_prefix, List.take_append_of_le_length (l₁ := us) (by omega), List.take_of_length_le (l := us) (by omega)]
    have happ : ∀ us : List Byte, us ++ [(BitVec.ofNat 64 (64 * k + q) <<< 3 >>> 56).setWidth 8] ++ [(BitVec.ofNat 64 (64 * k + q) <<< 3 >>> 48).setWidth 8] ++ [(BitVec.ofNat 64 (64 * k + q) <<< 3 >>> 40).setWidth 8] ++ [(BitVec.ofNat 64 (64 * k + q) <<< 3 >>> 32).setWidth 8] ++ [(BitVec.ofNat 64 (64 * k + q) <<< 3 >>> 24).setWidth 8] ++ [(BitVec.ofNat 64 (64 * k + q) <<< 3 >>> 16).setWidth 8] ++ [(BitVec.ofNat 64 (64 * k + q) <<< 3 >>> 8).setWidth 8] ++ [(BitVec.ofNat 64 (64 * k + q) <<< 3).setWidth 8] = us ++ lenBytes (64 * k + q) := by
      intro us; simp only [lenBytes, List.append_assoc, List.cons_append, List.nil_append]
    rw [happ, hpr _ hus, ok_bind, ← hpad]
    exact hfin

end Saber.U
