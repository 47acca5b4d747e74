import Verif.Proof.X4.Pack
/-!
# SaberX4's packing functions: results in terms of the specification
-/
namespace Saber.X4
open Spec

theorem pack10_blocks (row : List (BitVec 16)) (hd : row.length = 256) :
    pack 10 (toP row) = (List.range 64).flatMap fun j => POLp2BSBlk (row.getD (4 * j + 0) 0).toNat (row.getD (4 * j + 1) 0).toNat (row.getD (4 * j + 2) 0).toNat (row.getD (4 * j + 3) 0).toNat := by
  have hl : (List.replicate 320 (0 : Byte)).length = 320 := List.length_replicate
  have h := POLp2BS_ok (List.replicate 320 0) 0 row hd (by rw [hl])
  unfold POLp2BS at h
  rw [show N / 4 = 64 from rfl, loop_blocks 5 (fun j => POLp2BSBlk (row.getD (4 * j + 0) 0).toNat (row.getD (4 * j + 1) 0).toNat (row.getD (4 * j + 2) 0).toNat (row.getD (4 * j + 3) 0).toNat)
    (fun _ => rfl) 64 _ 0 (by rw [hl])] at h
  · rw [writeAt_full _ _ (by rw [hl, length_flatMap_range 5 _ fun _ => rfl]), writeAt_full _ _ (by rw [hl]; simp)] at h
    exact (Except.ok.inj h).symm
  · intro j a' hj ha
    simp only [rdN_ok, hd, show 4 * j + 0 < 256 by omega, show 4 * j + 1 < 256 by omega, show 4 * j + 2 < 256 by omega, show 4 * j + 3 < 256 by omega, ok_bind]

theorem unpack10_blocks (bytes : List Byte) (off : Nat) (hb : off + 320 ≤ bytes.length) :
    ofP (unpack 10 (bytes.drop off)) = (List.range 64).flatMap fun j => BS2POLpBlk
      (bytes.getD (off + 5 * j + 0) 0).toNat (bytes.getD (off + 5 * j + 1) 0).toNat (bytes.getD (off + 5 * j + 2) 0).toNat (bytes.getD (off + 5 * j + 3) 0).toNat (bytes.getD (off + 5 * j + 4) 0).toNat := by
  have hl : (List.replicate 256 (0 : BitVec 16)).length = 256 := List.length_replicate
  have h := BS2POLp_ok bytes off (List.replicate 256 0) hl hb
  unfold BS2POLp at h
  rw [show N / 4 = 64 from rfl, loop_blocks 4 (fun j => BS2POLpBlk (bytes.getD (off + 5 * j + 0) 0).toNat (bytes.getD (off + 5 * j + 1) 0).toNat (bytes.getD (off + 5 * j + 2) 0).toNat (bytes.getD (off + 5 * j + 3) 0).toNat (bytes.getD (off + 5 * j + 4) 0).toNat)
    (fun _ => rfl) 64 _ 0 (by rw [hl])] at h
  · rw [writeAt_full _ _ (by rw [hl, length_flatMap_range 4 _ fun _ => rfl])] at h
    exact (Except.ok.inj h).symm
  · intro j a' hj ha
    simp only [rdN_ok, show off + 5 * j + 0 < bytes.length by omega, show off + 5 * j + 1 < bytes.length by omega, show off + 5 * j + 2 < bytes.length by omega, show off + 5 * j + 3 < bytes.length by omega, show off + 5 * j + 4 < bytes.length by omega, ok_bind, Nat.zero_add]

/-- Byte `m` of a vector packed with 10 bits per coefficient. -/
def byte10 (data : List (List (BitVec 16))) (m : Nat) : Byte :=
  (POLp2BSBlk (coef data (4 * (m / 5) + 0)).toNat (coef data (4 * (m / 5) + 1)).toNat (coef data (4 * (m / 5) + 2)).toNat (coef data (4 * (m / 5) + 3)).toNat).getD (m % 5) 0

theorem byte10_block (data : List (List (BitVec 16))) (G r : Nat) (hr : r < 5) : byte10 data (5 * G + r) =
    (POLp2BSBlk (coef data (4 * G + 0)).toNat (coef data (4 * G + 1)).toNat (coef data (4 * G + 2)).toNat (coef data (4 * G + 3)).toNat).getD r 0 := by
  unfold byte10
  rw [show (5 * G + r) / 5 = G by omega, show (5 * G + r) % 5 = r by omega]

theorem packVec10_eq (data : List (List (BitVec 16))) (hd : IsVec 3 data) :
    packVec 10 (toV 3 data) = (List.range 960).map (byte10 data) := by
  rw [packVec_toV, show 960 = 5 * (64 * 3) from rfl, ← flatMap_map_range, ← flatMap_flatMap_range]
  apply flatMap_range_congr
  intro i hi
  rw [pack10_blocks _ (hd.2 i hi)]
  apply flatMap_range_congr
  intro j hj
  have e : ∀ t < 4, coef data (4 * (64 * i + j) + t) = (data.getD i []).getD (4 * j + t) 0 := by
    intro t ht
    unfold coef
    rw [show (4 * (64 * i + j) + t) / 256 = i by omega, show (4 * (64 * i + j) + t) % 256 = 4 * j + t by omega]
  apply ext_getD 0
  · simp; rfl
  · intro r hr
    have hr' : r < 5 := hr
    rw [getD_map_range _ _ _ _ hr', byte10_block _ _ _ hr', e 0 (by decide), e 1 (by decide), e 2 (by decide), e 3 (by decide)]

theorem POLVECp2BSX4_ok (bytes : Fam (List Byte)) (off : Fam Nat) (data : Fam (List (List (BitVec 16)))) (hd : ∀ l, IsVec 3 (data l))
    (hb : ∀ l, off l + 960 ≤ (bytes l).length) :
    POLVECp2BSX4 bytes off data = .ok fun l => writeAt (bytes l) (off l) (packVec 10 (toV 3 (data l))) := by
  unfold POLVECp2BSX4
  rw [avx_load_16bit_8bit_ok data hd _ (by simp [uninitV8, K, N]), ok_bind]
  rw [show K = 3 from rfl, show N / (4 * 2) = 32 from rfl,
    nested_blocks 5 3 32 (fun G => (List.range 5).map fun r => ext2 (fun l => byte10 (data l) (5 * G + r))
      (fun l => byte10 (data l) (480 + (5 * G + r)))) (by simp) _ (by simp [uninitV8]), ok_bind]
  · rw [show 32 * 3 = 96 from rfl, flatMap_map_range 96 5 fun m => ext2 (fun l => byte10 (data l) m) (fun l => byte10 (data l) (480 + m))]
    have := avx_store_8bit_bs_ok 30 (fun l => byte10 (data l)) bytes off hb
    simp only [fun l => packVec10_eq (data l) (hd l)]
    exact this
  · intro i j a' hi hj ha
    rw [gather_ok 4 _ _ (fun t => ext2 (fun l => coef (data l) (4 * (32 * i + j) + t)) (fun l => coef (data l) (384 + (4 * (32 * i + j) + t))))
      (fun t ht => by rw [show N * i / 2 + 4 * j + t = 4 * (32 * i + j) + t by rw [show N = 256 from rfl]; omega]; exact rd_arr 384 _ (by omega)),
      ok_bind, show i * (N * 10) / 8 / 2 + 5 * j = 5 * (32 * i + j) by rw [show N = 256 from rfl]; omega]
    congr 1
    have h1 : p2BSX4Blk (fun t => if t < 4 then ext2 (fun l => coef (data l) (4 * (32 * i + j) + t))
        (fun l => coef (data l) (384 + (4 * (32 * i + j) + t))) else fun _ => 0) =
        p2BSX4Blk (fun t => ext2 (fun l => coef (data l) (4 * (32 * i + j) + t)) (fun l => coef (data l) (384 + (4 * (32 * i + j) + t)))) := rfl
    rw [h1]
    generalize 32 * i + j = G
    rw [show (fun t => ext2 (fun l => coef (data l) (4 * G + t)) (fun l => coef (data l) (384 + (4 * G + t)))) =
      fun t => insertf128 (fun l => ((fun k l => coef (data l) (4 * G + k)) t l).setWidth 32)
        (fun l => ((fun k l => coef (data l) (384 + (4 * G + k))) t l).setWidth 32) from rfl, p2BSX4Blk_lane]
    apply map_range_congr
    intro r hr
    refine insertf128_eq (fun l => ?_) (fun l => ?_)
    · beta_reduce; rw [byte10_block _ _ _ hr]
    · beta_reduce
      rw [show 480 + (5 * G + r) = 5 * (96 + G) + r by omega, byte10_block _ _ _ hr]
      simp only [show ∀ t, 4 * (96 + G) + t = 384 + (4 * G + t) from fun t => by omega]

/-- Coefficient `n` of a vector unpacked from 10 bits per coefficient. -/
def coef10 (bytes : List Byte) (off n : Nat) : BitVec 16 :=
  (BS2POLpBlk (bytes.getD (off + (5 * (n / 4) + 0)) 0).toNat (bytes.getD (off + (5 * (n / 4) + 1)) 0).toNat (bytes.getD (off + (5 * (n / 4) + 2)) 0).toNat (bytes.getD (off + (5 * (n / 4) + 3)) 0).toNat (bytes.getD (off + (5 * (n / 4) + 4)) 0).toNat).getD (n % 4) 0

theorem coef10_block (bytes : List Byte) (off G r : Nat) (hr : r < 4) : coef10 bytes off (4 * G + r) =
    (BS2POLpBlk (bytes.getD (off + (5 * G + 0)) 0).toNat (bytes.getD (off + (5 * G + 1)) 0).toNat (bytes.getD (off + (5 * G + 2)) 0).toNat (bytes.getD (off + (5 * G + 3)) 0).toNat (bytes.getD (off + (5 * G + 4)) 0).toNat).getD r 0 := by
  unfold coef10
  rw [show (4 * G + r) / 4 = G by omega, show (4 * G + r) % 4 = r by omega]

theorem coef10_lt (bytes : List Byte) (off n : Nat) : (coef10 bytes off n).toNat < 32768 := by
  have h : n % 4 < 4 := Nat.mod_lt _ (by decide)
  have hz : (coef10 bytes off n).getLsbD 15 = false := by
    unfold coef10
    rw [BS2POLpBlk_bits _ _ _ _ _ _ 15 h (by decide)]
    rfl
  have hz' : (coef10 bytes off n).msb = false := by rw [BitVec.msb_eq_getLsbD_last]; exact hz
  rw [BitVec.msb_eq_decide] at hz'
  simpa using hz'

theorem ofP_unpack10 (bytes : List Byte) (off : Nat) (hb : off + 320 ≤ bytes.length) :
    ofP (unpack 10 (bytes.drop off)) = (List.range 256).map (coef10 bytes off) := by
  rw [unpack10_blocks bytes off hb, show 256 = 4 * 64 from rfl, ← flatMap_map_range]
  apply flatMap_range_congr
  intro j hj
  apply ext_getD 0
  · simp; rfl
  · intro r hr
    have hr' : r < 4 := hr
    rw [getD_map_range _ _ _ _ hr', coef10_block _ _ _ _ hr']
    simp only [Nat.add_assoc]

theorem coef10_shift (bytes : List Byte) (off i n : Nat) : coef10 bytes (off + 320 * i) n = coef10 bytes off (256 * i + n) := by
  unfold coef10
  simp only [show (256 * i + n) / 4 = 64 * i + n / 4 by omega, show (256 * i + n) % 4 = n % 4 by omega,
    show ∀ t, off + (5 * (64 * i + n / 4) + t) = off + 320 * i + (5 * (n / 4) + t) from fun t => by omega]

theorem vecsV_unpack10 (bytes : List Byte) (off : Nat) (hb : off + 960 ≤ bytes.length) :
    Avx.vecsV .saber (ofV (unpackVec 10 3 (bytes.drop off))) = grid fun n t => coef10 bytes off (16 * n + t.val) := by
  unfold Avx.vecsV grid
  apply map_range_congr
  intro i hi
  have hi' : i < 3 := hi
  have e : (ofV (unpackVec 10 3 (bytes.drop off))).getD i [] = (List.range 256).map fun n => coef10 bytes off (256 * i + n) := by
    unfold ofV unpackVec
    rw [finRange_map_val 3 fun j => ofP (unpack 10 ((bytes.drop off).drop (32 * 10 * j))), getD_map_range _ _ _ _ hi', List.drop_drop,
      ofP_unpack10 _ _ (by omega)]
    exact map_range_congr _ _ _ fun n _ => coef10_shift bytes off i n
  rw [e, Avx.vecsOf]
  apply map_range_congr
  intro j hj
  funext t
  rw [getD_map_range _ _ _ _ (by omega)]
  congr 1; omega

theorem BS2POLVECpX4_ok (bs : Fam (List Byte)) (off : Fam Nat) (data : Fam (List (List Avx.Vec))) (hd : ∀ l, Avx.IsVV 3 16 (data l))
    (hb : ∀ l, off l + 960 ≤ (bs l).length) :
    BS2POLVECpX4 bs off data = .ok fun l => Avx.vecsV .saber (ofV (unpackVec 10 3 ((bs l).drop (off l)))) := by
  unfold BS2POLVECpX4
  have hl := avx_load_8bit_16bit_ok bs off (uninitV8 404 (960 / 2)) 30 (by simp [uninitV8]) hb
  rw [show 32 * 30 = 960 from rfl] at hl
  rw [hl, ok_bind]
  rw [show K = 3 from rfl, show N / 4 / 2 = 32 from rfl,
    nested_blocks 4 3 32 (fun G => (List.range 4).map fun r => ext2 (fun l => coef10 (bs l) (off l) (4 * G + r))
      (fun l => coef10 (bs l) (off l) (384 + (4 * G + r)))) (by simp) _ (by simp [uninitV8, N]), ok_bind]
  · rw [show 32 * 3 = 96 from rfl, flatMap_map_range 96 4 fun m => ext2 (fun l => coef10 (bs l) (off l) m) (fun l => coef10 (bs l) (off l) (384 + m))]
    have := avx_store_16bit_KN_ok (fun l => coef10 (bs l) (off l)) (fun l j => coef10_lt _ _ _) data hd
    simp only [fun l => vecsV_unpack10 (bs l) (off l) (hb l)]
    exact this
  · intro i j a' hi hj ha
    rw [gather_ok 5 _ _ (fun t => ext2 (fun l => (bs l).getD (off l + (5 * (32 * i + j) + t)) 0)
        (fun l => (bs l).getD (off l + (480 + (5 * (32 * i + j) + t))) 0))
      (fun t ht => by rw [show i * (N * 10) / 8 / 2 + 5 * j + t = 5 * (32 * i + j) + t by rw [show N = 256 from rfl]; omega]; exact rd_arr 480 _ (by omega)),
      ok_bind, show i * N / 2 + 4 * j = 4 * (32 * i + j) by rw [show N = 256 from rfl]; omega]
    congr 1
    have h1 : BS2pX4Blk (fun t => if t < 5 then ext2 (fun l => (bs l).getD (off l + (5 * (32 * i + j) + t)) 0)
        (fun l => (bs l).getD (off l + (480 + (5 * (32 * i + j) + t))) 0) else fun _ => 0) =
        BS2pX4Blk (fun t => ext2 (fun l => (bs l).getD (off l + (5 * (32 * i + j) + t)) 0)
        (fun l => (bs l).getD (off l + (480 + (5 * (32 * i + j) + t))) 0)) := rfl
    rw [h1]
    generalize 32 * i + j = G
    rw [show (fun t => ext2 (fun l => (bs l).getD (off l + (5 * G + t)) 0) (fun l => (bs l).getD (off l + (480 + (5 * G + t))) 0)) =
      fun t => insertf128 (fun l => ((fun k l => (bs l).getD (off l + (5 * G + k)) 0) t l).setWidth 32)
        (fun l => ((fun k l => (bs l).getD (off l + (480 + (5 * G + k))) 0) t l).setWidth 32) from rfl, BS2pX4Blk_lane]
    apply map_range_congr
    intro r hr
    refine insertf128_eq (fun l => ?_) (fun l => ?_)
    · beta_reduce; rw [coef10_block _ _ _ _ hr]
    · beta_reduce
      rw [show 384 + (4 * G + r) = 4 * (96 + G) + r by omega, coef10_block _ _ _ _ hr]
      simp only [show ∀ t, 5 * (96 + G) + t = 480 + (5 * G + t) from fun t => by omega]

theorem pack13_blocks (row : List (BitVec 16)) (hd : row.length = 256) :
    pack 13 (toP row) = (List.range 32).flatMap fun j => POLq2BSBlk (row.getD (8 * j + 0) 0).toNat (row.getD (8 * j + 1) 0).toNat (row.getD (8 * j + 2) 0).toNat (row.getD (8 * j + 3) 0).toNat (row.getD (8 * j + 4) 0).toNat (row.getD (8 * j + 5) 0).toNat (row.getD (8 * j + 6) 0).toNat (row.getD (8 * j + 7) 0).toNat := by
  have hl : (List.replicate 416 (0 : Byte)).length = 416 := List.length_replicate
  have h := POLq2BS_ok (List.replicate 416 0) 0 row hd (by rw [hl])
  unfold POLq2BS at h
  rw [show N / 8 = 32 from rfl, loop_blocks 13 (fun j => POLq2BSBlk (row.getD (8 * j + 0) 0).toNat (row.getD (8 * j + 1) 0).toNat (row.getD (8 * j + 2) 0).toNat (row.getD (8 * j + 3) 0).toNat (row.getD (8 * j + 4) 0).toNat (row.getD (8 * j + 5) 0).toNat (row.getD (8 * j + 6) 0).toNat (row.getD (8 * j + 7) 0).toNat)
    (fun _ => rfl) 32 _ 0 (by rw [hl])] at h
  · rw [writeAt_full _ _ (by rw [hl, length_flatMap_range 13 _ fun _ => rfl]), writeAt_full _ _ (by rw [hl]; simp)] at h
    exact (Except.ok.inj h).symm
  · intro j a' hj ha
    simp only [rdN_ok, hd, show 8 * j + 0 < 256 by omega, show 8 * j + 1 < 256 by omega, show 8 * j + 2 < 256 by omega, show 8 * j + 3 < 256 by omega, show 8 * j + 4 < 256 by omega, show 8 * j + 5 < 256 by omega, show 8 * j + 6 < 256 by omega, show 8 * j + 7 < 256 by omega, ok_bind]

theorem unpack13_blocks (bytes : List Byte) (off : Nat) (hb : off + 416 ≤ bytes.length) :
    ofP (unpack 13 (bytes.drop off)) = (List.range 32).flatMap fun j => BS2POLqBlk
      (bytes.getD (off + 13 * j + 0) 0).toNat (bytes.getD (off + 13 * j + 1) 0).toNat (bytes.getD (off + 13 * j + 2) 0).toNat (bytes.getD (off + 13 * j + 3) 0).toNat (bytes.getD (off + 13 * j + 4) 0).toNat (bytes.getD (off + 13 * j + 5) 0).toNat (bytes.getD (off + 13 * j + 6) 0).toNat (bytes.getD (off + 13 * j + 7) 0).toNat (bytes.getD (off + 13 * j + 8) 0).toNat (bytes.getD (off + 13 * j + 9) 0).toNat (bytes.getD (off + 13 * j + 10) 0).toNat (bytes.getD (off + 13 * j + 11) 0).toNat (bytes.getD (off + 13 * j + 12) 0).toNat := by
  have hl : (List.replicate 256 (0 : BitVec 16)).length = 256 := List.length_replicate
  have h := BS2POLq_ok bytes off (List.replicate 256 0) hl hb
  unfold BS2POLq at h
  rw [show N / 8 = 32 from rfl, loop_blocks 8 (fun j => BS2POLqBlk (bytes.getD (off + 13 * j + 0) 0).toNat (bytes.getD (off + 13 * j + 1) 0).toNat (bytes.getD (off + 13 * j + 2) 0).toNat (bytes.getD (off + 13 * j + 3) 0).toNat (bytes.getD (off + 13 * j + 4) 0).toNat (bytes.getD (off + 13 * j + 5) 0).toNat (bytes.getD (off + 13 * j + 6) 0).toNat (bytes.getD (off + 13 * j + 7) 0).toNat (bytes.getD (off + 13 * j + 8) 0).toNat (bytes.getD (off + 13 * j + 9) 0).toNat (bytes.getD (off + 13 * j + 10) 0).toNat (bytes.getD (off + 13 * j + 11) 0).toNat (bytes.getD (off + 13 * j + 12) 0).toNat)
    (fun _ => rfl) 32 _ 0 (by rw [hl])] at h
  · rw [writeAt_full _ _ (by rw [hl, length_flatMap_range 8 _ fun _ => rfl])] at h
    exact (Except.ok.inj h).symm
  · intro j a' hj ha
    simp only [rdN_ok, show off + 13 * j + 0 < bytes.length by omega, show off + 13 * j + 1 < bytes.length by omega, show off + 13 * j + 2 < bytes.length by omega, show off + 13 * j + 3 < bytes.length by omega, show off + 13 * j + 4 < bytes.length by omega, show off + 13 * j + 5 < bytes.length by omega, show off + 13 * j + 6 < bytes.length by omega, show off + 13 * j + 7 < bytes.length by omega, show off + 13 * j + 8 < bytes.length by omega, show off + 13 * j + 9 < bytes.length by omega, show off + 13 * j + 10 < bytes.length by omega, show off + 13 * j + 11 < bytes.length by omega, show off + 13 * j + 12 < bytes.length by omega, ok_bind, Nat.zero_add]

/-- Byte `m` of a vector packed with 13 bits per coefficient. -/
def byte13 (data : List (List (BitVec 16))) (m : Nat) : Byte :=
  (POLq2BSBlk (coef data (8 * (m / 13) + 0)).toNat (coef data (8 * (m / 13) + 1)).toNat (coef data (8 * (m / 13) + 2)).toNat (coef data (8 * (m / 13) + 3)).toNat (coef data (8 * (m / 13) + 4)).toNat (coef data (8 * (m / 13) + 5)).toNat (coef data (8 * (m / 13) + 6)).toNat (coef data (8 * (m / 13) + 7)).toNat).getD (m % 13) 0

theorem byte13_block (data : List (List (BitVec 16))) (G r : Nat) (hr : r < 13) : byte13 data (13 * G + r) =
    (POLq2BSBlk (coef data (8 * G + 0)).toNat (coef data (8 * G + 1)).toNat (coef data (8 * G + 2)).toNat (coef data (8 * G + 3)).toNat (coef data (8 * G + 4)).toNat (coef data (8 * G + 5)).toNat (coef data (8 * G + 6)).toNat (coef data (8 * G + 7)).toNat).getD r 0 := by
  unfold byte13
  rw [show (13 * G + r) / 13 = G by omega, show (13 * G + r) % 13 = r by omega]

theorem packVec13_eq (data : List (List (BitVec 16))) (hd : IsVec 3 data) :
    packVec 13 (toV 3 data) = (List.range 1248).map (byte13 data) := by
  rw [packVec_toV, show 1248 = 13 * (32 * 3) from rfl, ← flatMap_map_range, ← flatMap_flatMap_range]
  apply flatMap_range_congr
  intro i hi
  rw [pack13_blocks _ (hd.2 i hi)]
  apply flatMap_range_congr
  intro j hj
  have e : ∀ t < 8, coef data (8 * (32 * i + j) + t) = (data.getD i []).getD (8 * j + t) 0 := by
    intro t ht
    unfold coef
    rw [show (8 * (32 * i + j) + t) / 256 = i by omega, show (8 * (32 * i + j) + t) % 256 = 8 * j + t by omega]
  apply ext_getD 0
  · simp; rfl
  · intro r hr
    have hr' : r < 13 := hr
    rw [getD_map_range _ _ _ _ hr', byte13_block _ _ _ hr', e 0 (by decide), e 1 (by decide), e 2 (by decide), e 3 (by decide), e 4 (by decide), e 5 (by decide), e 6 (by decide), e 7 (by decide)]

theorem POLVECq2BSX4_ok (bytes : Fam (List Byte)) (off : Fam Nat) (data : Fam (List (List (BitVec 16)))) (hd : ∀ l, IsVec 3 (data l))
    (hb : ∀ l, off l + 1248 ≤ (bytes l).length) :
    POLVECq2BSX4 bytes off data = .ok fun l => writeAt (bytes l) (off l) (packVec 13 (toV 3 (data l))) := by
  unfold POLVECq2BSX4
  rw [avx_load_16bit_8bit_ok data hd _ (by simp [uninitV8, K, N]), ok_bind]
  rw [show K = 3 from rfl, show N / (8 * 2) = 16 from rfl,
    nested_blocks 13 3 16 (fun G => (List.range 13).map fun r => ext2 (fun l => byte13 (data l) (13 * G + r))
      (fun l => byte13 (data l) (624 + (13 * G + r)))) (by simp) _ (by simp [uninitV8]), ok_bind]
  · rw [show 16 * 3 = 48 from rfl, flatMap_map_range 48 13 fun m => ext2 (fun l => byte13 (data l) m) (fun l => byte13 (data l) (624 + m))]
    have := avx_store_8bit_bs_ok 39 (fun l => byte13 (data l)) bytes off hb
    simp only [fun l => packVec13_eq (data l) (hd l)]
    exact this
  · intro i j a' hi hj ha
    rw [gather_ok 8 _ _ (fun t => ext2 (fun l => coef (data l) (8 * (16 * i + j) + t)) (fun l => coef (data l) (384 + (8 * (16 * i + j) + t))))
      (fun t ht => by rw [show N * i / 2 + 8 * j + t = 8 * (16 * i + j) + t by rw [show N = 256 from rfl]; omega]; exact rd_arr 384 _ (by omega)),
      ok_bind, show i * (N * 13) / 8 / 2 + 13 * j = 13 * (16 * i + j) by rw [show N = 256 from rfl]; omega]
    congr 1
    have h1 : q2BSX4Blk (fun t => if t < 8 then ext2 (fun l => coef (data l) (8 * (16 * i + j) + t))
        (fun l => coef (data l) (384 + (8 * (16 * i + j) + t))) else fun _ => 0) =
        q2BSX4Blk (fun t => ext2 (fun l => coef (data l) (8 * (16 * i + j) + t)) (fun l => coef (data l) (384 + (8 * (16 * i + j) + t)))) := rfl
    rw [h1]
    generalize 16 * i + j = G
    rw [show (fun t => ext2 (fun l => coef (data l) (8 * G + t)) (fun l => coef (data l) (384 + (8 * G + t)))) =
      fun t => insertf128 (fun l => ((fun k l => coef (data l) (8 * G + k)) t l).setWidth 32)
        (fun l => ((fun k l => coef (data l) (384 + (8 * G + k))) t l).setWidth 32) from rfl, q2BSX4Blk_lane]
    apply map_range_congr
    intro r hr
    refine insertf128_eq (fun l => ?_) (fun l => ?_)
    · beta_reduce; rw [byte13_block _ _ _ hr]
    · beta_reduce
      rw [show 624 + (13 * G + r) = 13 * (48 + G) + r by omega, byte13_block _ _ _ hr]
      simp only [show ∀ t, 8 * (48 + G) + t = 384 + (8 * G + t) from fun t => by omega]

/-- Coefficient `n` of a vector unpacked from 13 bits per coefficient. -/
def coef13 (bytes : List Byte) (off n : Nat) : BitVec 16 :=
  (BS2POLqBlk (bytes.getD (off + (13 * (n / 8) + 0)) 0).toNat (bytes.getD (off + (13 * (n / 8) + 1)) 0).toNat (bytes.getD (off + (13 * (n / 8) + 2)) 0).toNat (bytes.getD (off + (13 * (n / 8) + 3)) 0).toNat (bytes.getD (off + (13 * (n / 8) + 4)) 0).toNat (bytes.getD (off + (13 * (n / 8) + 5)) 0).toNat (bytes.getD (off + (13 * (n / 8) + 6)) 0).toNat (bytes.getD (off + (13 * (n / 8) + 7)) 0).toNat (bytes.getD (off + (13 * (n / 8) + 8)) 0).toNat (bytes.getD (off + (13 * (n / 8) + 9)) 0).toNat (bytes.getD (off + (13 * (n / 8) + 10)) 0).toNat (bytes.getD (off + (13 * (n / 8) + 11)) 0).toNat (bytes.getD (off + (13 * (n / 8) + 12)) 0).toNat).getD (n % 8) 0

theorem coef13_block (bytes : List Byte) (off G r : Nat) (hr : r < 8) : coef13 bytes off (8 * G + r) =
    (BS2POLqBlk (bytes.getD (off + (13 * G + 0)) 0).toNat (bytes.getD (off + (13 * G + 1)) 0).toNat (bytes.getD (off + (13 * G + 2)) 0).toNat (bytes.getD (off + (13 * G + 3)) 0).toNat (bytes.getD (off + (13 * G + 4)) 0).toNat (bytes.getD (off + (13 * G + 5)) 0).toNat (bytes.getD (off + (13 * G + 6)) 0).toNat (bytes.getD (off + (13 * G + 7)) 0).toNat (bytes.getD (off + (13 * G + 8)) 0).toNat (bytes.getD (off + (13 * G + 9)) 0).toNat (bytes.getD (off + (13 * G + 10)) 0).toNat (bytes.getD (off + (13 * G + 11)) 0).toNat (bytes.getD (off + (13 * G + 12)) 0).toNat).getD r 0 := by
  unfold coef13
  rw [show (8 * G + r) / 8 = G by omega, show (8 * G + r) % 8 = r by omega]

theorem coef13_lt (bytes : List Byte) (off n : Nat) : (coef13 bytes off n).toNat < 32768 := by
  have h : n % 8 < 8 := Nat.mod_lt _ (by decide)
  have hz : (coef13 bytes off n).getLsbD 15 = false := by
    unfold coef13
    rw [BS2POLqBlk_bits _ _ _ _ _ _ _ _ _ _ _ _ _ _ 15 h (by decide)]
    rfl
  have hz' : (coef13 bytes off n).msb = false := by rw [BitVec.msb_eq_getLsbD_last]; exact hz
  rw [BitVec.msb_eq_decide] at hz'
  simpa using hz'

theorem ofP_unpack13 (bytes : List Byte) (off : Nat) (hb : off + 416 ≤ bytes.length) :
    ofP (unpack 13 (bytes.drop off)) = (List.range 256).map (coef13 bytes off) := by
  rw [unpack13_blocks bytes off hb, show 256 = 8 * 32 from rfl, ← flatMap_map_range]
  apply flatMap_range_congr
  intro j hj
  apply ext_getD 0
  · simp; rfl
  · intro r hr
    have hr' : r < 8 := hr
    rw [getD_map_range _ _ _ _ hr', coef13_block _ _ _ _ hr']
    simp only [Nat.add_assoc]

theorem coef13_shift (bytes : List Byte) (off i n : Nat) : coef13 bytes (off + 416 * i) n = coef13 bytes off (256 * i + n) := by
  unfold coef13
  simp only [show (256 * i + n) / 8 = 32 * i + n / 8 by omega, show (256 * i + n) % 8 = n % 8 by omega,
    show ∀ t, off + (13 * (32 * i + n / 8) + t) = off + 416 * i + (13 * (n / 8) + t) from fun t => by omega]

theorem vecsV_unpack13 (bytes : List Byte) (off : Nat) (hb : off + 1248 ≤ bytes.length) :
    Avx.vecsV .saber (ofV (unpackVec 13 3 (bytes.drop off))) = grid fun n t => coef13 bytes off (16 * n + t.val) := by
  unfold Avx.vecsV grid
  apply map_range_congr
  intro i hi
  have hi' : i < 3 := hi
  have e : (ofV (unpackVec 13 3 (bytes.drop off))).getD i [] = (List.range 256).map fun n => coef13 bytes off (256 * i + n) := by
    unfold ofV unpackVec
    rw [finRange_map_val 3 fun j => ofP (unpack 13 ((bytes.drop off).drop (32 * 13 * j))), getD_map_range _ _ _ _ hi', List.drop_drop,
      ofP_unpack13 _ _ (by omega)]
    exact map_range_congr _ _ _ fun n _ => coef13_shift bytes off i n
  rw [e, Avx.vecsOf]
  apply map_range_congr
  intro j hj
  funext t
  rw [getD_map_range _ _ _ _ (by omega)]
  congr 1; omega

theorem BS2POLVECqX4_ok (bs : Fam (List Byte)) (off : Fam Nat) (data : Fam (List (List Avx.Vec))) (hd : ∀ l, Avx.IsVV 3 16 (data l))
    (hb : ∀ l, off l + 1248 ≤ (bs l).length) :
    BS2POLVECqX4 bs off data = .ok fun l => Avx.vecsV .saber (ofV (unpackVec 13 3 ((bs l).drop (off l)))) := by
  unfold BS2POLVECqX4
  have hl := avx_load_8bit_16bit_ok bs off (uninitV8 406 (1248 / 2)) 39 (by simp [uninitV8]) hb
  rw [show 32 * 39 = 1248 from rfl] at hl
  rw [hl, ok_bind]
  rw [show K = 3 from rfl, show N / (8 * 2) = 16 from rfl,
    nested_blocks 8 3 16 (fun G => (List.range 8).map fun r => ext2 (fun l => coef13 (bs l) (off l) (8 * G + r))
      (fun l => coef13 (bs l) (off l) (384 + (8 * G + r)))) (by simp) _ (by simp [uninitV8, N]), ok_bind]
  · rw [show 16 * 3 = 48 from rfl, flatMap_map_range 48 8 fun m => ext2 (fun l => coef13 (bs l) (off l) m) (fun l => coef13 (bs l) (off l) (384 + m))]
    have := avx_store_16bit_KN_ok (fun l => coef13 (bs l) (off l)) (fun l j => coef13_lt _ _ _) data hd
    simp only [fun l => vecsV_unpack13 (bs l) (off l) (hb l)]
    exact this
  · intro i j a' hi hj ha
    rw [gather_ok 13 _ _ (fun t => ext2 (fun l => (bs l).getD (off l + (13 * (16 * i + j) + t)) 0)
        (fun l => (bs l).getD (off l + (624 + (13 * (16 * i + j) + t))) 0))
      (fun t ht => by rw [show i * (N * 13) / 8 / 2 + 13 * j + t = 13 * (16 * i + j) + t by rw [show N = 256 from rfl]; omega]; exact rd_arr 624 _ (by omega)),
      ok_bind, show i * N / 2 + 8 * j = 8 * (16 * i + j) by rw [show N = 256 from rfl]; omega]
    congr 1
    have h1 : BS2qX4Blk (fun t => if t < 13 then ext2 (fun l => (bs l).getD (off l + (13 * (16 * i + j) + t)) 0)
        (fun l => (bs l).getD (off l + (624 + (13 * (16 * i + j) + t))) 0) else fun _ => 0) =
        BS2qX4Blk (fun t => ext2 (fun l => (bs l).getD (off l + (13 * (16 * i + j) + t)) 0)
        (fun l => (bs l).getD (off l + (624 + (13 * (16 * i + j) + t))) 0)) := rfl
    rw [h1]
    generalize 16 * i + j = G
    rw [show (fun t => ext2 (fun l => (bs l).getD (off l + (13 * G + t)) 0) (fun l => (bs l).getD (off l + (624 + (13 * G + t))) 0)) =
      fun t => insertf128 (fun l => ((fun k l => (bs l).getD (off l + (13 * G + k)) 0) t l).setWidth 32)
        (fun l => ((fun k l => (bs l).getD (off l + (624 + (13 * G + k))) 0) t l).setWidth 32) from rfl, BS2qX4Blk_lane]
    apply map_range_congr
    intro r hr
    refine insertf128_eq (fun l => ?_) (fun l => ?_)
    · beta_reduce; rw [coef13_block _ _ _ _ hr]
    · beta_reduce
      rw [show 384 + (8 * G + r) = 8 * (48 + G) + r by omega, coef13_block _ _ _ _ hr]
      simp only [show ∀ t, 13 * (48 + G) + t = 624 + (13 * G + t) from fun t => by omega]

end Saber.X4
