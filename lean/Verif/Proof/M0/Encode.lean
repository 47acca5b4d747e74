import Verif.Proof.M0.Indcpa
/-!
# Message encoding and decoding of the Cortex-M0 port
-/
namespace Saber.M0
open Saber Spec Spec.Keccak

theorem vectorMul_ok {E : UB → Prop} {mac : Mac} (hm : ∀ c a b, OkE E (mac c a b) (· = c + a * b)) (bytes : List Byte) (off : Nat)
    (hb : off + 960 ≤ bytes.length) (skpv : List (List (BitVec 16))) (hsk : IsVec 3 skpv) :
    OkE E (VectorMul mac bytes off skpv (List.replicate N 0)) fun r => r.length = 256 ∧
      ∀ k, toP r k = innerProd (unpackVec 10 3 (bytes.drop off)) (toV 3 skpv) k % 1024 := by
  unfold VectorMul
  refine OkE.bind (OkE.loop_inv (fun j (st : List (BitVec 16) × List (BitVec 16)) => st.1.length = 256 ∧ st.2.length = 256 ∧
    ∀ k, toP st.1 k % 65536 =
      (∑ j ∈ Finset.range j, negMul (unpack 10 (bytes.drop (off + 320 * j))) (toP (skpv.getD j [])) k) % 65536) ?_ ?_) ?_
  · refine ⟨List.length_replicate, length_uninit _ _ _, fun k => ?_⟩
    show toP (List.replicate 256 0) k % 65536 = _
    rw [toP_zero]; rfl
  · rintro j ⟨r, a⟩ hj ⟨h1, h2, h3⟩
    replace hj : j < 3 := hj
    simp only at h1 h2 h3 ⊢
    rw [BS2POLp_m0 j bytes off a h2 (by omega), ok_bind, rd_ok [] (by rw [hsk.1]; exact hj), ok_bind]
    refine (pol_mul_spec hm (length_ofP _) (hsk.2 j hj) h1).bind ?_
    rintro r' ⟨hl, hr⟩
    refine OkE.pure ⟨hl, length_ofP _, fun k => ?_⟩
    simp only
    rw [hr k, Finset.sum_range_succ, toP_ofP_unpack 10 (by omega), Int.add_emod, h3 k, ← Int.add_emod]
  · rintro ⟨r, a⟩ ⟨h1, h2, h3⟩
    simp only at h1 h2 h3 ⊢
    rw [maskRow_ok r h1]
    refine OkE.pure ⟨by simp, fun k => ?_⟩
    rw [toP_mask]
    have h4 : toP r k % 1024 = (∑ j ∈ Finset.range 3, negMul (unpack 10 (bytes.drop (off + 320 * j))) (toP (skpv.getD j [])) k) % 1024 :=
      Int.ModEq.of_mul_right (m := 64) (h3 k)
    rw [h4, Finset.sum_range]
    unfold innerProd
    refine congrArg (· % (1024 : Int)) (Finset.sum_congr rfl fun j _ => ?_)
    unfold unpackVec
    rw [List.drop_drop]
    rfl

/-! ### The message -/

theorem msgBit (m : List Byte) (mOff j i : Nat) (hi : i < 8) (h : 8 * j + i < 256) :
    (n16 (((m.getD (mOff + j) 0).toNat >>> i) &&& 1) <<< 9).toNat = 512 * (unpack 1 (m.drop mOff) ⟨8 * j + i, h⟩).toNat := by
  have e : unpack 1 (m.drop mOff) ⟨8 * j + i, h⟩ = (((m.getD (mOff + j) 0).getLsbD i).toNat : Nat) := by
    unfold unpack natOfBits bitAt
    simp only [List.range_one, List.map_cons, List.map_nil, List.sum_cons, List.sum_nil, Nat.one_mul, Nat.add_zero, pow_zero, Nat.mul_one]
    rw [getD_drop, show (8 * j + i) / 8 = j by omega, show (8 * j + i) % 8 = i by omega]
  have e2 : ((m.getD (mOff + j) 0).toNat >>> i) &&& 1 = ((m.getD (mOff + j) 0).getLsbD i).toNat := by
    rw [BitVec.getLsbD, Nat.testBit, Nat.and_comm]
    generalize (m.getD (mOff + j) 0).toNat >>> i = x
    rw [Nat.and_comm, Nat.and_one_is_mod]
    rcases Nat.mod_two_eq_zero_or_one x with h | h <;> rw [h] <;> rfl
  rw [e, e2, Int.toNat_natCast]
  cases (m.getD (mOff + j) 0).getLsbD i <;> rfl

theorem addMsg_ok (m : List Byte) (mOff : Nat) (v : List (BitVec 16)) (hv : v.length = 256) (hm : mOff + 32 ≤ m.length)
    (hr : ∀ k, toP v k < 1024) :
    Ok (addMsg m mOff v) fun r => r.length = 256 ∧ ∀ k, toP r k = toP v k + 512 * unpack 1 (m.drop mOff) k := by
  have upd : ∀ (n : Nat) (hn : n < 256) (r : List (BitVec 16)) (x : BitVec 16),
      (r.length = 256 ∧ ∀ k : Fin 256, toP r k = toP v k + if k.val < n then 512 * unpack 1 (m.drop mOff) k else 0) →
      x.toNat = 512 * (unpack 1 (m.drop mOff) ⟨n, hn⟩).toNat →
      Ok (addTo r n x) fun r => r.length = 256 ∧
        ∀ k : Fin 256, toP r k = toP v k + if k.val < n + 1 then 512 * unpack 1 (m.drop mOff) k else 0 := by
    rintro n hn r x ⟨hl, hI⟩ hx
    rw [addTo_ok (by omega)]
    refine Ok.pure ⟨by simp [hl], fun k => ?_⟩
    by_cases e : k.val = n
    · have ek : k = ⟨n, hn⟩ := Fin.ext e
      have h1 := hI k
      have h2 := hr k
      have h3 := unpack_range 1 (m.drop mOff) k
      rw [if_neg (by omega)] at h1
      rw [if_pos (by omega)]
      rw [← ek] at hx
      unfold toP at h1 h2 ⊢
      rw [e, getD_set, if_pos ⟨rfl, by omega⟩, BitVec.toNat_add, hx]
      rw [e] at h1 h2
      omega
    · have h1 := hI k
      have : toP (r.set n (r.getD n 0 + x)) k = toP r k := by
        unfold toP
        rw [getD_set, if_neg (by omega)]
      rw [this, h1]
      by_cases h4 : k.val < n
      · rw [if_pos h4, if_pos (by omega)]
      · rw [if_neg h4, if_neg (by omega)]
  unfold addMsg
  refine (loop_inv (fun j (r : List (BitVec 16)) => r.length = 256 ∧
    ∀ k : Fin 256, toP r k = toP v k + if k.val < 8 * j then 512 * unpack 1 (m.drop mOff) k else 0) ?_ ?_).mono ?_
  · exact ⟨hv, fun k => by simp⟩
  · intro j r hj hI
    refine (loop_inv (fun i (r : List (BitVec 16)) => r.length = 256 ∧
      ∀ k : Fin 256, toP r k = toP v k + if k.val < 8 * j + i then 512 * unpack 1 (m.drop mOff) k else 0) hI ?_)
    intro i r hi hI
    rw [rdN_ok (by omega), ok_bind, mul_comm j 8]
    exact upd (8 * j + i) (by omega) r _ hI (msgBit m mOff j i hi (by omega))
  · rintro r ⟨h1, h2⟩
    refine ⟨h1, fun k => ?_⟩
    rw [h2 k, if_pos (by omega)]

theorem genCipherText_ok (v : List (BitVec 16)) (hv : v.length = 256) (c : List Byte) (hc : c.length = 128) :
    GenCipherText v c = .ok (pack 4 fun k => toP v k / 64) := by
  unfold GenCipherText
  have h := loop_blocks 1 (fun j => [v.getD j 0 >>> 6]) (fun _ => rfl) N (uninit 16 122 N) 0 (by simp) (fun i t => do
    let b ← rd v i
    wr t i (b >>> 6)) (by
      intro j a' hj ha
      rw [rd_ok 0 (by rw [hv]; exact hj), ok_bind, wr_eq_wrs, Nat.zero_add, Nat.one_mul])
  rw [h, ok_bind, flatMap_singleton_eq_map, pack4_eq, writeAt_full _ _ (by simp), POLT2BS_4_ok _ _ _ (by simp) (by omega),
    writeAt_full _ _ (by rw [length_pack]; omega)]
  refine congrArg (fun p => Except.ok (pack 4 p)) ?_
  funext k
  unfold toP
  rw [show N = 256 from rfl, getD_map_range _ _ _ _ k.isLt, BitVec.toNat_ushiftRight, Nat.shiftRight_eq_div_pow]
  push_cast
  rfl

theorem i16_eq (x : Int) : i16 x = (x + 32768) % 65536 - 32768 := by
  unfold i16
  rw [BitVec.toInt_ofInt, Int.bmod_def]
  norm_num
  split <;> omega

theorem isar_eq (a : Int) (k : Nat) : isar a k = a / 2 ^ k := rfl

theorem sign2_eq (z : Int) (h0 : 0 ≤ z) (h1 : z < 512) : i16 (isar (i16 (-(i16 z))) 15 % 2) = if z = 0 then 0 else 1 := by
  have e1 : i16 z = z := by rw [i16_eq]; omega
  have e2 : i16 (-z) = -z := by rw [i16_eq]; omega
  rw [e1, e2, isar_eq, i16_eq]
  split
  · next h => subst h; rfl
  · have : -z / 2 ^ 15 = -1 := by norm_num; omega
    rw [this]; rfl

theorem floor_special_eq (a : BitVec 16) : ((floor_special a).toNat : Int) = prom a / 512 % 2 := by
  have e9 : ∀ x : Int, (((u16 x >>> 9) &&& 1 : BitVec 16).toNat : Int) = x % 65536 / 512 % 2 := by
    intro x
    rw [← u16_mod]
    rw [BitVec.toNat_and, BitVec.toNat_ushiftRight, Nat.shiftRight_eq_div_pow, show (1 : BitVec 16).toNat = 1 from rfl, Nat.and_one_is_mod]
    push_cast
    rfl
  have es : prom ((a >>> 15) &&& 1) = prom a / 32768 := by
    unfold prom
    rw [BitVec.toNat_and, BitVec.toNat_ushiftRight, Nat.shiftRight_eq_div_pow, show (1 : BitVec 16).toNat = 1 from rfl, Nat.and_one_is_mod]
    have := a.isLt
    omega
  unfold floor_special
  dsimp only
  rw [e9, es]
  have hb : ∀ x : Int, prom (u16 x) = x % 65536 := fun x => u16_mod x
  rw [hb]
  have ha := prom_range a
  generalize prom a = x at *
  have hx : x / 32768 = 0 ∨ x / 32768 = 1 := by omega
  rw [sign2_eq _ (Int.emod_nonneg _ (by norm_num)) (Int.emod_lt_of_pos _ (by norm_num))]
  rcases hx with h | h <;> rw [h]
  · simp only [i16_eq]
    omega
  · generalize hy : i16 (1 * (0 - x) + (1 - 1) * x) = y
    have hy' : y = 65536 - x ∨ y = - x := by rw [← hy, i16_eq]; omega
    generalize hs : (if y % 512 = 0 then (0 : Int) else 1) = s2
    have hs' : (y % 512 = 0 ∧ s2 = 0) ∨ (y % 512 ≠ 0 ∧ s2 = 1) := by
      by_cases h0 : y % 512 = 0
      · rw [if_pos h0] at hs; exact .inl ⟨h0, hs.symm⟩
      · rw [if_neg h0] at hs; exact .inr ⟨h0, hs.symm⟩
    generalize hw : i16 (y + 1 * s2) = w
    have hw' : ∃ t : Int, w = y + s2 + 65536 * t := by
      rw [i16_eq] at hw
      exact ⟨-((y + 1 * s2 + 32768) / 65536), by omega⟩
    obtain ⟨t, rfl⟩ := hw'
    have e : (1 * (0 - (y + s2 + 65536 * t)) + (1 - 1) * (y % 65536)) % 65536 = x - s2 := by omega
    rw [e]
    omega

theorem extract_ok (a sd : BitVec 16) (ha : prom a < 1024) (hs : prom sd < 16) :
    Ok (extract a sd) fun r => (r.toNat : Int) = (prom a - 64 * prom sd + 224) % 1024 / 512 := by
  have h1 := prom_range a
  have h2 := prom_range sd
  unfold extract
  rw [ishl_ok (a := prom sd) (k := 10 - 1 - 3) ⟨h2.1, by norm_num; omega⟩ (by decide), ok_bind, isub_ok (by norm_num; omega), ok_bind,
    iadd_ok (by norm_num; omega), ok_bind]
  refine Ok.pure ?_
  rw [floor_special_eq]
  have hb : ∀ x : Int, prom (u16 x) = x % 65536 := fun x => u16_mod x
  rw [hb]
  norm_num
  omega

/-- The stores of `ExtractKeyBits` into a buffer of any size. -/
theorem storeLoop (f : Nat → BitVec 16) (m : List Byte) (n : Nat) (body : Nat → List Byte → CM (List Byte))
    (hb : ∀ i m, i < n → body i m = st16 m i (f i)) :
    loop n m body = if 2 * n ≤ m.length then .ok (writeAt m 0 ((List.range n).flatMap fun i => [(f i).setWidth 8, (f i >>> 8).setWidth 8]))
      else .error .oob := by
  induction n with
  | zero => simp [writeAt]
  | succ n ih =>
    rw [loop_succ, ih fun i m hi => hb i m (by omega)]
    by_cases h : 2 * n ≤ m.length
    · rw [if_pos h, ok_bind, hb n _ (by omega)]
      have hl : ((List.range n).flatMap fun i => [(f i).setWidth 8, (f i >>> 8).setWidth 8]).length = 2 * n := by
        rw [List.length_flatMap]; simp [mul_comm]
      have hl2 := length_writeAt m 0 ((List.range n).flatMap fun i => [(f i).setWidth 8, (f i >>> 8).setWidth 8]) (by omega)
      by_cases h' : 2 * (n + 1) ≤ m.length
      · have e : ∀ a : List Byte, st16 a n (f n) = wrs a (2 * n) [(f n).setWidth 8, (f n >>> 8).setWidth 8] := by
          intro a
          unfold st16
          simp only [wrs]
          cases wr a (2 * n) (BitVec.setWidth 8 (f n)) with
          | error e => rfl
          | ok a =>
            rw [ok_bind, ok_bind]
            cases wr a (2 * n + 1) (BitVec.setWidth 8 (f n >>> 8)) <;> rfl
        rw [if_pos h', e, wrs_ok _ _ _ (by rw [hl2]; simp; omega), writeAt_after _ _ _ _ _ (by omega) (by simp; omega), List.range_succ,
          List.flatMap_append]
        simp
      · rw [if_neg h']
        unfold st16
        by_cases h3 : 2 * n < m.length
        · rw [wr_ok (by omega), ok_bind]
          unfold wr
          rw [if_neg (by rw [List.length_set]; omega)]
        · unfold wr
          rw [if_neg (by omega)]
          rfl
    · rw [if_neg h, if_neg (by omega)]
      rfl

/-- `ExtractKeyBits` writes 512 bytes; in a smaller buffer it goes out of bounds. -/
theorem extractKeyBits_ok (v : List (BitVec 16)) (hv : v.length = 256) (hr : ∀ k, toP v k < 1024) (c : List Byte) (off : Nat)
    (hc : off + 128 ≤ c.length) (m : List Byte) :
    ExtractKeyBits v c off m = if 512 ≤ m.length then .ok (writeAt m 0 (m0Words (m0DecodeMsg (toP v) (unpack 4 (c.drop off)))))
      else .error .oob := by
  unfold ExtractKeyBits
  rw [unpack4_eq, BS2POLT_4_ok c off _ (length_uninit _ _ _) hc, ok_bind]
  have hx : ∀ i, i < 256 → ∃ r, extract (v.getD i 0) ((ofP (unpack 4 (c.drop off))).getD i 0) = .ok r ∧
      r = BitVec.ofInt 16 (m0DecodeMsg (toP v) (unpack 4 (c.drop off)) (Fin.ofNat 256 i)) := by
    intro i hi
    have ei : Fin.ofNat 256 i = ⟨i, hi⟩ := Fin.ext (Nat.mod_eq_of_lt hi)
    have h1 : prom (v.getD i 0) = toP v ⟨i, hi⟩ := rfl
    have h2 : prom ((ofP (unpack 4 (c.drop off))).getD i 0) = unpack 4 (c.drop off) ⟨i, hi⟩ := by
      exact congrFun (toP_ofP_unpack 4 (by omega) (c.drop off)) ⟨i, hi⟩
    have h3 := unpack_range 4 (c.drop off) ⟨i, hi⟩
    obtain ⟨r, e, hr'⟩ := extract_ok (v.getD i 0) ((ofP (unpack 4 (c.drop off))).getD i 0) (by rw [h1]; exact hr _) (by rw [h2]; omega)
    refine ⟨r, e, ?_⟩
    rw [h1, h2] at hr'
    apply BitVec.eq_of_toNat_eq
    rw [ei, BitVec.toNat_ofInt]
    simp only [m0DecodeMsg]
    omega
  have := storeLoop (fun i => BitVec.ofInt 16 (m0DecodeMsg (toP v) (unpack 4 (c.drop off)) (Fin.ofNat 256 i))) m 256 (fun i m => do
    let a ← rd v i
    let o ← rd (ofP (unpack 4 (c.drop off))) i
    let k ← extract a o
    st16 m i k) (by
      intro i m hi
      obtain ⟨r, e, rfl⟩ := hx i hi
      rw [rd_ok 0 (by omega), ok_bind, rd_ok 0 (by rw [length_ofP]; exact hi), ok_bind, e, ok_bind])
  show loop 256 m _ = _
  rw [this]
  refine if_congr (Iff.of_eq (by norm_num)) ?_ rfl
  refine congrArg (fun z => Except.ok (writeAt m 0 z)) ?_
  unfold m0Words
  have hw : ∀ k : Fin 256, [(BitVec.ofInt 16 (m0DecodeMsg (toP v) (unpack 4 (c.drop off)) k)).setWidth 8,
      (BitVec.ofInt 16 (m0DecodeMsg (toP v) (unpack 4 (c.drop off)) k) >>> 8).setWidth 8] =
      [BitVec.ofInt 8 (m0DecodeMsg (toP v) (unpack 4 (c.drop off)) k), 0] := by
    intro k
    have : m0DecodeMsg (toP v) (unpack 4 (c.drop off)) k = 0 ∨ m0DecodeMsg (toP v) (unpack 4 (c.drop off)) k = 1 := by
      simp only [m0DecodeMsg]; omega
    rcases this with h | h <;> rw [h] <;> rfl
  rw [← List.map_coe_finRange_eq_range, List.flatMap_map]
  rw [List.flatMap_def, List.flatMap_def]
  refine congrArg List.flatten (List.map_congr_left fun k _ => ?_)
  rw [← hw k]
  have : Fin.ofNat 256 k.val = k := Fin.ext (Nat.mod_eq_of_lt k.isLt)
  rw [this]

end Saber.M0
