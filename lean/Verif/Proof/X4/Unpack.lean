import Verif.Proof.X4.PackSpec
/-!
# `BS2POLq4x` and `SABER_un_pack4bitX4`, lane by lane
-/
namespace Saber.X4
open Spec

theorem store1_loop_ok (d0 : List Avx.Vec) (hd : d0.length = 16) (V : Nat → Avx.Vec) :
    (loop 8 d0 fun k d => do
      let d ← wr d k (V k)
      wr d (k + 8) (V (8 + k))) = .ok ((List.range 16).map V) := by
  obtain ⟨d, hd', hv, he⟩ : Ok (loop 8 d0 fun k d => do
      let d ← wr d k (V k)
      wr d (k + 8) (V (8 + k)))
      fun d => d.length = 16 ∧ ∀ j, (j < 8 ∨ 8 ≤ j ∧ j < 16) → d.getD j (fun _ => 0) = V j := by
    apply loop_inv (fun k (d : List Avx.Vec) => d.length = 16 ∧ ∀ j, (j < k ∨ 8 ≤ j ∧ j < 8 + k) → d.getD j (fun _ => 0) = V j)
    · exact ⟨hd, fun j hj => by omega⟩
    · intro k d hk ⟨hv, he⟩
      rw [wr_ok (by omega), ok_bind, wr_ok (by rw [List.length_set]; omega)]
      refine Ok.pure ⟨by simp only [List.length_set]; exact hv, fun j hj => ?_⟩
      rw [getD_set, getD_set, List.length_set, hv]
      by_cases c1 : j = k + 8
      · rw [if_pos (by omega), c1, Nat.add_comm]
      · rw [if_neg (by omega)]
        by_cases c2 : j = k
        · rw [if_pos (by omega), c2]
        · rw [if_neg (by omega), he j (by omega)]
  rw [hd']
  congr 1
  apply ext_getD fun _ => 0
  · simp [hv]
  · intro j hj
    rw [he j (by omega), getD_map_range _ _ _ _ (by omega)]

theorem vecsOf_unpack13 (bytes : List Byte) (off : Nat) (hb : off + 416 ≤ bytes.length) :
    Avx.vecsOf (ofP (unpack 13 (bytes.drop off))) = (List.range 16).map fun n t => coef13 bytes off (16 * n + t.val) := by
  rw [ofP_unpack13 _ _ hb, Avx.vecsOf]
  apply map_range_congr
  intro j hj
  funext t
  rw [getD_map_range _ _ _ _ (by omega), Nat.mul_comm]

theorem BS2POLq4x_ok (bs : Fam (List Byte)) (off : Fam Nat) (data : Fam (List Avx.Vec)) (hd : ∀ l, (data l).length = 16)
    (hb : ∀ l, off l + 416 ≤ (bs l).length) :
    BS2POLq4x bs off data = .ok fun l => Avx.vecsOf (ofP (unpack 13 ((bs l).drop (off l)))) := by
  unfold BS2POLq4x
  rw [avx_load_8bit_16bit_ok bs off (uninitV8 408 (32 * 13 / 2)) 13 (by simp [uninitV8]) hb, ok_bind, show N / 8 / 2 = 16 from rfl]
  rw [loop_blocks 8 (fun G => (List.range 8).map fun r => ext2 (fun l => coef13 (bs l) (off l) (8 * G + r))
      (fun l => coef13 (bs l) (off l) (128 + (8 * G + r)))) (by simp) 16 _ 0 (by simp [uninitV8]), ok_bind]
  · rw [writeAt_full _ _ (by rw [length_flatMap_range 8 _ (by simp)]; simp [uninitV8]),
      flatMap_map_range 16 8 fun m => ext2 (fun l => coef13 (bs l) (off l) m) (fun l => coef13 (bs l) (off l) (128 + m))]
    rw [show (List.range (8 * 16)).map (fun m => ext2 (fun l => coef13 (bs l) (off l) m) fun l => coef13 (bs l) (off l) (128 + m)) =
      arr 128 (fun l => coef13 (bs l) (off l)) from rfl]
    refine Sim.eq (m := fun l => loop 8 (data l) fun k d => do
        let d ← wr d k (fun t => coef13 (bs l) (off l) (16 * k + t.val))
        wr d (k + 8) (fun t => coef13 (bs l) (off l) (16 * (8 + k) + t.val))) ?_ fun l => by
      rw [store1_loop_ok _ (hd l) fun n t => coef13 (bs l) (off l) (16 * n + t.val), vecsOf_unpack13 _ _ (hb l)]
    apply Sim.loop id
    intro k hk s
    rw [extract16_ok 128 _ k (by omega), ok_bind]
    refine Sim.bind (π := id) ?_ fun a _ _ => ?_
    · have e : ∀ r, pack16 (fun g r c => (coef13 (bs r) (off r) (128 * (0 : Fin 2).val + (16 * k + (4 * g.val + c.val)))).setWidth 32) r =
          fun t : Fin 16 => coef13 (bs r) (off r) (16 * k + t.val) := fun r => funext fun t => by
        have := pack16_lane (fun l => coef13 (bs l) (off l)) (fun l j => coef13_lt _ _ _) (16 * k) r t
        simpa using this
      simp only [e]
      exact Sim.fourA
    · rw [extract16_ok 128 _ k (by omega), ok_bind]
      have e : ∀ r, pack16 (fun g r c => (coef13 (bs r) (off r) (128 * (1 : Fin 2).val + (16 * k + (4 * g.val + c.val)))).setWidth 32) r =
          fun t : Fin 16 => coef13 (bs r) (off r) (16 * (8 + k) + t.val) := fun r => funext fun t => by
        have := pack16_lane (fun l => coef13 (bs l) (off l)) (fun l j => coef13_lt _ _ _) (16 * (8 + k)) r t
        rw [← this]
        congr 2
        funext g r c
        congr 2
        show 128 * 1 + _ = _
        omega
      simp only [e]
      exact Sim.fourA
  · intro j a' hj ha
    rw [gather_ok 13 _ _ (fun t => ext2 (fun l => (bs l).getD (off l + (13 * j + t)) 0)
        (fun l => (bs l).getD (off l + (208 + (13 * j + t))) 0))
      (fun t ht => rd_arr 208 _ (by omega)), ok_bind, Nat.zero_add]
    congr 1
    have h1 : BS2POLq4xBlk (fun t => if t < 13 then ext2 (fun l => (bs l).getD (off l + (13 * j + t)) 0)
        (fun l => (bs l).getD (off l + (208 + (13 * j + t))) 0) else fun _ => 0) =
        BS2POLq4xBlk (fun t => ext2 (fun l => (bs l).getD (off l + (13 * j + t)) 0)
        (fun l => (bs l).getD (off l + (208 + (13 * j + t))) 0)) := rfl
    rw [h1]
    rw [show (fun t => ext2 (fun l => (bs l).getD (off l + (13 * j + t)) 0) (fun l => (bs l).getD (off l + (208 + (13 * j + t))) 0)) =
      fun t => insertf128 (fun l => ((fun k l => (bs l).getD (off l + (13 * j + k)) 0) t l).setWidth 32)
        (fun l => ((fun k l => (bs l).getD (off l + (208 + (13 * j + k))) 0) t l).setWidth 32) from rfl, BS2POLq4xBlk_lane]
    apply map_range_congr
    intro r hr
    refine insertf128_eq (fun l => ?_) (fun l => ?_)
    · beta_reduce; rw [coef13_block _ _ _ _ hr]
    · beta_reduce
      rw [show 128 + (8 * j + r) = 8 * (16 + j) + r by omega, coef13_block _ _ _ _ hr]
      simp only [show ∀ t, 13 * (16 + j) + t = 208 + (13 * j + t) from fun t => by omega]

theorem SABER_un_pack4bitX4_ok (bytes : Fam (List Byte)) (off : Fam Nat) (m : Fam (List (BitVec 16))) (hm : ∀ l, (m l).length = 256)
    (hb : ∀ l, off l + 128 ≤ (bytes l).length) :
    SABER_un_pack4bitX4 bytes off m = .ok fun l => ofP (unpack 4 ((bytes l).drop (off l))) := by
  unfold SABER_un_pack4bitX4
  refine Sim.eq (m := fun l => BS2POLT_4 (bytes l) (off l) (m l)) ?_ fun l => BS2POLT_4_ok _ _ _ (hm l) (hb l)
  unfold BS2POLT_4
  apply Sim.loop id
  intro k hk s
  exact Sim.fourA

end Saber.X4
