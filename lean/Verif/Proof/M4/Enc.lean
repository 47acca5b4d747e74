import Verif.Proof.M4.Poly
/-!
# Cortex-M4: encryption, comparison and decryption of `poly.c`
-/
namespace Saber.M4
open Spec
open M0 (packVec_range)

variable {P : PSet} {lib : Fips202Lib} {St : List Byte → Nat → lib.Ctx → Prop} {toom : Toom} {cs : Bool}

/-- The bytes of row `i` of the ciphertext. -/
def cRow (P : PSet) (seedA S : List Byte) (i : Nat) : List Byte :=
  pack 10 (roundP (acc (fun j => negMul (gA P seedA i j) (gS P S j)) P.L))

theorem length_cRow (seedA S : List Byte) (i : Nat) : (cRow P seedA S i).length = 320 := length_pack _ _

/-- The rounded vector of the ciphertext. -/
theorem cRows (seedA S : List Byte) : (List.range P.L).flatMap (cRow P seedA S) =
    packVec 10 (fun i => roundP (matVec (genMatrix P.spec seedA) (genSecret P.spec S) i)) := by
  rw [← finRange_flatMap_val P.L (cRow P seedA S)]
  unfold packVec
  rw [List.flatMap_def, List.flatMap_def]
  congr 1
  apply List.map_congr_left
  intro i _
  unfold cRow
  rw [acc_matVec' seedA S i]

theorem getD_ofV_genSecret (S : List Byte) {j : Nat} (hj : j < P.L) : (ofV (genSecret P.spec S)).getD j [] = ofP (gS P S j) := by
  unfold ofV
  have := finRange_map_val P.L (fun j => ofP (gS P S j))
  rw [show ((List.finRange P.spec.l).map fun i => ofP (genSecret P.spec S i)) = (List.range P.L).map (fun j => ofP (gS P S j)) from this,
    getD_map_range _ _ _ _ hj]

theorem meInner_ok (hl : lib.CorrectWith St) (ht : ToomOk toom) {seedA S : List Byte} {i : Nat} (hi : i < P.L) {st : ME lib.Ctx}
    (hA : st.A.length = 256) (hb : st.bp.length = 256) (hc : St seedA (i * P.L * 416) st.cA) :
    Ok (meInner P lib toom (ofV (genSecret P.spec S)) st) fun st' => st'.A.length = 256 ∧ st'.bp.length = 256 ∧
      EqMod 8192 (toP st'.bp) (acc (fun j => negMul (gA P seedA i j) (gS P S j)) P.L) ∧ St seedA ((i + 1) * P.L * 416) st'.cA := by
  unfold meInner
  have hL : 0 < P.L := by cases P <;> decide
  refine (loop_inv (fun j (st : ME lib.Ctx) => st.A.length = 256 ∧ st.bp.length = 256 ∧
    (0 < j → EqMod 8192 (toP st.bp) (acc (fun j => negMul (gA P seedA i j) (gS P S j)) j)) ∧ St seedA ((i * P.L + j) * 416) st.cA)
    ⟨hA, hb, fun h => by omega, hc⟩ ?_).mono ?_
  · rintro j st hj ⟨q1, q2, q3, q4⟩
    refine (squeeze_poly_ok hl P hi hj q1 q4).bind fun r ⟨a1, a2, a3⟩ => ?_
    obtain ⟨A, cA⟩ := r
    dsimp only at a1 a2 a3 ⊢
    have hlv := (isVec_ofV (genSecret P.spec S)).1
    rw [rd_ok [] (by rw [hlv]; exact hj), ok_bind, getD_ofV_genSecret S hj]
    refine (mulAcc_ok ht (j == 0) (by simp) a1 q2).bind fun o ⟨b1, b2, b3⟩ => ?_
    obtain ⟨A', bp⟩ := o
    dsimp only at b1 b2 b3 ⊢
    refine Ok.pure ⟨b1, b2, fun _ => ?_, a3⟩
    exact acc_step q3 b3 (negMul_congr' (m := 8192) (toP_ofP_mod _ _ (by decide)) a2)
  · rintro st ⟨q1, q2, q3, q4⟩
    refine ⟨q1, q2, q3 hL, ?_⟩
    rw [show (i + 1) * P.L * 416 = (i * P.L + P.L) * 416 by ring]
    exact q4

theorem MatrixVectorMulEnc_ok (hl : lib.CorrectWith St) (ht : ToomOk toom) (ct : List Byte) (seed : List Byte) (off : Nat) (S : List Byte)
    (hb : off + 32 ≤ seed.length) (hct : P.L * 320 ≤ ct.length) :
    MatrixVectorMulEnc P lib toom ct 0 seed off (ofV (genSecret P.spec S)) = .ok (writeAt ct 0
      (packVec 10 (fun i => roundP (matVec (genMatrix P.spec ((seed.drop off).take 32)) (genSecret P.spec S) i)))) := by
  apply M0.eq_of_Ok
  unfold MatrixVectorMulEnc
  refine (absorb_ok hl seed off hb).bind fun cA h1 => ?_
  generalize (seed.drop off).take 32 = seedA at h1 ⊢
  refine Ok.bind (loop_inv (fun i (r : ME lib.Ctx × List Byte) => r.1.A.length = 256 ∧ r.1.bp.length = 256 ∧ St seedA (i * P.L * 416) r.1.cA ∧
    r.2 = writeAt ct 0 ((List.range i).flatMap (cRow P seedA S))) ?_ ?_) ?_
  · exact ⟨length_uninit _ _ _, length_uninit _ _ _, by simpa using h1, by simp⟩
  · rintro i ⟨st, ct'⟩ hi ⟨q1, q2, q3, q4⟩
    dsimp only at q1 q2 q3 q4 ⊢
    have hfl : ((List.range i).flatMap (cRow P seedA S)).length = 320 * i := length_flatMap_range 320 _ (length_cRow (P := P) seedA S) i
    have hle := Nat.mul_le_mul_right 320 (show i + 1 ≤ P.L from hi)
    have hle1 : (i + 1) * 320 ≤ ct.length := Nat.le_trans hle hct
    have hle2 : i * 320 + 320 ≤ ct.length := by rw [Nat.succ_mul] at hle1; exact hle1
    have hle3 : 0 + ((List.range i).flatMap (cRow P seedA S)).length ≤ ct.length := by omega
    refine (meInner_ok (S := S) hl ht hi q1 q2 q3).bind fun st' ⟨a1, a2, a3, a4⟩ => ?_
    refine (roundPoly_ok _ a2).bind fun bp ⟨u1, u2⟩ => ?_
    rw [show POLYCOMPRESSEDBYTES = 320 from rfl, Nat.zero_add, POLp2BS_ok _ _ _ u1 (by rw [q4, length_writeAt _ _ _ hle3]; exact hle2), ok_bind]
    refine Ok.pure ⟨a1, u1, a4, ?_⟩
    dsimp only
    rw [packRound u2 a3, q4]
    exact writeAt_snoc _ _ _ _ (length_cRow seedA S) hle1 _ rfl
  · rintro ⟨st, ct'⟩ ⟨_, _, _, q4⟩
    dsimp only at q4 ⊢
    refine Ok.pure ?_
    rw [q4, cRows]

theorem MatrixVectorMulEnc_cmp_ok (hl : lib.CorrectWith St) (ht : ToomOk toom) (ct : List Byte) (seed : List Byte) (off : Nat) (S : List Byte)
    (hb : off + 32 ≤ seed.length) (hct : P.L * 320 ≤ ct.length) :
    Ok (MatrixVectorMulEnc_cmp P lib toom ct 0 seed off (ofV (genSecret P.spec S))) fun f => f.toNat < 256 ∧ (f = 0 ↔ ct.take (P.L * 320) =
      packVec 10 (fun i => roundP (matVec (genMatrix P.spec ((seed.drop off).take 32)) (genSecret P.spec S) i))) := by
  unfold MatrixVectorMulEnc_cmp
  refine (absorb_ok hl seed off hb).bind fun cA h1 => ?_
  generalize (seed.drop off).take 32 = seedA at h1 ⊢
  refine Ok.bind (loop_inv (fun i (r : ME lib.Ctx × BitVec 32) => r.1.A.length = 256 ∧ r.1.bp.length = 256 ∧ St seedA (i * P.L * 416) r.1.cA ∧
    r.2.toNat < 256 ∧ (r.2 = 0 ↔ ct.take (i * 320) = (List.range i).flatMap (cRow P seedA S))) ?_ ?_) ?_
  · exact ⟨length_uninit _ _ _, length_uninit _ _ _, by simpa using h1, by simp, by simp⟩
  · rintro i ⟨st, f⟩ hi ⟨q1, q2, q3, q4, q5⟩
    dsimp only at q1 q2 q3 q4 q5 ⊢
    have hfl : ((List.range i).flatMap (cRow P seedA S)).length = 320 * i := length_flatMap_range 320 _ (length_cRow (P := P) seedA S) i
    have hle := Nat.mul_le_mul_right 320 (show i + 1 ≤ P.L from hi)
    have hle1 : (i + 1) * 320 ≤ ct.length := Nat.le_trans hle hct
    have hle2 : i * 320 + 320 ≤ ct.length := by rw [Nat.succ_mul] at hle1; exact hle1
    refine (meInner_ok (S := S) hl ht hi q1 q2 q3).bind fun st' ⟨a1, a2, a3, a4⟩ => ?_
    refine (roundPoly_ok _ a2).bind fun bp ⟨u1, u2⟩ => ?_
    rw [show POLYCOMPRESSEDBYTES = 320 from rfl, Nat.zero_add]
    refine (POLp2BS_cmp_ok ct (i * 320) bp u1 hle2).bind fun g ⟨g1, g2⟩ => ?_
    refine Ok.pure ⟨a1, u1, a4, or_lt _ _ q4 g1, ?_⟩
    dsimp only
    rw [packRound u2 a3] at g2
    rw [or_eq_zero32, q5, g2, List.range_succ, List.flatMap_append, List.flatMap_singleton, Nat.succ_mul, List.take_add]
    constructor
    · rintro ⟨e1, e2⟩
      rw [e1, e2]; rfl
    · intro e
      exact List.append_inj e (by rw [hfl, List.length_take]; omega)
  · rintro ⟨st, f⟩ ⟨_, _, _, q4, q5⟩
    dsimp only at q4 q5 ⊢
    refine Ok.pure ⟨q4, ?_⟩
    rw [q5, cRows]

theorem acc_inner (b : PVec P.L) (S : List Byte) (f : Nat → Poly) (hf : ∀ i : Fin P.L, f i = b i) :
    acc (fun j => negMul (f j) (gS P S j)) P.L = innerProd b (genSecret P.spec S) := by
  funext k
  unfold acc innerProd
  rw [Finset.sum_range]
  refine Finset.sum_congr rfl fun i _ => ?_
  beta_reduce
  rw [hf]; rfl

theorem encodeMsg_congr' (P : PSet) {y v m m' : Poly} (hy : EqMod 1024 y v) (hm : EqMod 2 m' m) :
    EqMod (2 ^ P.ET) (fun k => ((y k - 512 * m' k + 4) / 2 ^ (10 - P.ET)) % 65536) (encodeMsg P.ET v m) := by
  intro k
  have := hy k
  have := hm k
  beta_reduce
  cases P <;> simp only [encodeMsg, PSet.ET, Spec.h1] <;> norm_num <;> omega

theorem decodeMsg_congr' (P : PSet) {y v c c' : Poly} (hy : EqMod 1024 y v) (hc : EqMod (2 ^ P.ET) c' c) :
    EqMod (2 ^ 1) (fun k => ((y k + Saber.h2 P - 2 ^ (10 - P.ET) * c' k) / 512) % 65536) (decodeMsg P.ET v c) := by
  intro k
  have := hy k
  have := hc k
  cases P <;> simp only [PSet.ET] at this <;> simp only [decodeMsg, PSet.ET, Spec.h2, Saber.h2, EP, EQ] <;> norm_num at this ⊢ <;> omega

/-- The bytes of the second part of the ciphertext. -/
theorem innerProdEncV_ok (ht : ToomOk toom) (pk : List Byte) (pkOff : Nat) (S m : List Byte) (mOff : Nat)
    (hpk : pkOff + P.L * 320 ≤ pk.length) (hm : mOff + 32 ≤ m.length) :
    Ok (innerProdEncV P toom pk pkOff (ofV (genSecret P.spec S)) m mOff) fun r => r.length = 256 ∧ pack P.ET (toP r) =
      pack P.ET (encodeMsg P.ET (innerProd (unpackVec 10 P.L (pk.drop pkOff)) (genSecret P.spec S)) (unpack 1 (m.drop mOff))) := by
  unfold innerProdEncV
  have hL : 0 < P.L := by cases P <;> decide
  refine Ok.bind (loop_inv (fun j (r : List (BitVec 16) × List (BitVec 16)) => r.1.length = 256 ∧ r.2.length = 256 ∧
    (0 < j → EqMod 1024 (toP r.2) (acc (fun j => negMul (unpack 10 (pk.drop (pkOff + j * 320))) (gS P S j)) j))) ?_ ?_) ?_
  · exact ⟨length_uninit _ _ _, length_uninit _ _ _, fun h => by omega⟩
  · rintro j ⟨b, vp⟩ hj ⟨q1, q2, q3⟩
    dsimp only at q1 q2 q3 ⊢
    have hle := Nat.mul_le_mul_right 320 (show j + 1 ≤ P.L from hj)
    rw [show POLYCOMPRESSEDBYTES = 320 from rfl]
    refine (BS2POLp_ok pk (pkOff + j * 320) b q1 (by omega)).bind fun b' ⟨a1, a2⟩ => ?_
    have hlv := (isVec_ofV (genSecret P.spec S)).1
    rw [rd_ok [] (by rw [hlv]; exact hj), ok_bind, getD_ofV_genSecret S hj]
    refine (mulAcc_ok ht (j == 0) (by simp) a1 q2).mono fun o ⟨b1, b2, b3⟩ => ?_
    refine ⟨b1, b2, fun _ => acc_step q3 (EqMod.of_dvd (by decide) b3) (negMul_congr' (m := 1024) (toP_ofP_mod _ _ (by decide)) a2)⟩
  · rintro ⟨b, vp⟩ ⟨q1, q2, q3⟩
    dsimp only at q1 q2 q3 ⊢
    refine (BS2POLmsg_ok m mOff b q1 hm).bind fun mp ⟨a1, a2⟩ => ?_
    refine Ok.mono (encRound_ok P vp mp q2 a1) fun r ⟨u1, u2⟩ => ⟨u1, ?_⟩
    apply pack_congr (by cases P <;> decide)
    rw [show toP r = fun k => ((toP vp k - 512 * toP mp k + 4) / 2 ^ (10 - P.ET)) % 65536 from funext u2]
    refine encodeMsg_congr' P ?_ a2
    have := q3 hL
    rw [acc_inner (unpackVec 10 P.L (pk.drop pkOff)) S (fun j => unpack 10 (pk.drop (pkOff + j * 320)))] at this
    · exact this
    · intro i
      unfold unpackVec
      rw [List.drop_drop]
      congr 2
      omega

theorem InnerProdEnc_ok (ht : ToomOk toom) (ct : List Byte) (ctOff : Nat) (pk : List Byte) (pkOff : Nat) (S m : List Byte) (mOff : Nat)
    (hpk : pkOff + P.L * 320 ≤ pk.length) (hm : mOff + 32 ≤ m.length) (hct : ctOff + 32 * P.ET ≤ ct.length) :
    InnerProdEnc P toom ct ctOff pk pkOff (ofV (genSecret P.spec S)) m mOff = .ok (writeAt ct ctOff
      (pack P.ET (encodeMsg P.ET (innerProd (unpackVec 10 P.L (pk.drop pkOff)) (genSecret P.spec S)) (unpack 1 (m.drop mOff))))) := by
  apply M0.eq_of_Ok
  unfold InnerProdEnc
  refine (innerProdEncV_ok ht pk pkOff S m mOff hpk hm).bind fun r ⟨h1, h2⟩ => ?_
  rw [POLT2BS_ok P _ _ _ h1 hct, h2]
  exact Ok.pure rfl

theorem InnerProdEnc_cmp_ok (ht : ToomOk toom) (ct : List Byte) (ctOff : Nat) (pk : List Byte) (pkOff : Nat) (S m : List Byte) (mOff : Nat)
    (hpk : pkOff + P.L * 320 ≤ pk.length) (hm : mOff + 32 ≤ m.length) (hct : ctOff + 32 * P.ET ≤ ct.length) :
    Ok (InnerProdEnc_cmp P toom ct ctOff pk pkOff (ofV (genSecret P.spec S)) m mOff) fun f => f.toNat < 256 ∧
      (f = 0 ↔ (ct.drop ctOff).take (32 * P.ET) =
        pack P.ET (encodeMsg P.ET (innerProd (unpackVec 10 P.L (pk.drop pkOff)) (genSecret P.spec S)) (unpack 1 (m.drop mOff)))) := by
  unfold InnerProdEnc_cmp
  refine (innerProdEncV_ok ht pk pkOff S m mOff hpk hm).bind fun r ⟨h1, h2⟩ => ?_
  refine (POLT2BS_cmp_ok P ct ctOff r h1 hct).bind fun f ⟨f1, f2⟩ => ?_
  rw [h2] at f2
  refine Ok.pure ⟨or_lt _ _ (by decide) f1, ?_⟩
  rw [or_eq_zero32, f2]
  exact ⟨fun h => h.2, fun h => ⟨rfl, h⟩⟩

/-- The secret vector read from the secret key. -/
def skVec (P : PSet) (cs : Bool) (sk : List Byte) : PVec P.L := if cs then unpackVecS4 P.L sk else unpackVec 13 P.L sk

/-- The secret polynomial at index `i`. -/
def skPoly (cs : Bool) (sk : List Byte) (i : Nat) : Poly :=
  if cs then fun k => signed4 (unpack 4 (sk.drop (i * 128)) k) else unpack 13 (sk.drop (i * 416))

theorem skPoly_vec (cs : Bool) (sk : List Byte) (i : Fin P.L) : skPoly cs sk i = skVec P cs sk i := by
  cases cs
  · show unpack 13 _ = unpack 13 _
    rw [Nat.mul_comm]
  · show (fun k => signed4 (unpack 4 (sk.drop (i.val * 128)) k)) = fun k => signed4 (unpack 4 (sk.drop (32 * 4 * i.val)) k)
    rw [Nat.mul_comm]

theorem BS2POLmu_ok (cs : Bool) (sk : List Byte) (i : Nat) (data : List (BitVec 16)) (hd : data.length = 256)
    (hb : i * POLYSECRETBYTES cs + POLYSECRETBYTES cs ≤ sk.length) :
    Ok (BS2POLmu cs sk (i * POLYSECRETBYTES cs) data) fun r => r.length = 256 ∧ EqMod 8192 (toP r) (skPoly cs sk i) := by
  cases cs
  · exact BS2POLq_ok sk _ data hd hb
  · show Ok (BS2POLmu_c sk (i * 128) data) _
    rw [BS2POLmu_c_ok sk (i * 128) data hd hb]
    exact Ok.pure ⟨by simp, toP_ofP_mod _ _ (by decide)⟩

theorem InnerProdDec_ok (ht : ToomOk toom) (m ct sk : List Byte) (hsk : INDCPA_SECRETKEYBYTES P cs ≤ sk.length)
    (hct : P.BYTES_CCA_DEC ≤ ct.length) (hm : 32 ≤ m.length) :
    InnerProdDec P toom cs m ct sk = .ok (writeAt m 0
      (pack 1 (decodeMsg P.ET (innerProd (unpackVec 10 P.L ct) (skVec P cs sk)) (unpack P.ET (ct.drop (P.L * 320)))))) := by
  apply M0.eq_of_Ok
  have hL : 0 < P.L := by cases P <;> decide
  have hcl : P.BYTES_CCA_DEC = P.L * 320 + 32 * P.ET := by cases P <;> rfl
  have hsl : INDCPA_SECRETKEYBYTES P cs = P.L * POLYSECRETBYTES cs := rfl
  unfold InnerProdDec
  refine Ok.bind (loop_inv (fun j (r : ID) => r.s.length = 256 ∧ r.bp.length = 256 ∧ r.v.length = 256 ∧
    (0 < j → EqMod 1024 (toP r.v) (acc (fun j => negMul (unpack 10 (ct.drop (j * 320))) (skPoly cs sk j)) j))) ?_ ?_) ?_
  · exact ⟨length_uninit _ _ _, length_uninit _ _ _, length_uninit _ _ _, fun h => by omega⟩
  · rintro j st hj ⟨q1, q2, q3, q4⟩
    have hle := Nat.mul_le_mul_right 320 (show j + 1 ≤ P.L from hj)
    have hle2 := Nat.mul_le_mul_right (POLYSECRETBYTES cs) (show j + 1 ≤ P.L from hj)
    rw [Nat.succ_mul] at hle2
    refine (BS2POLmu_ok cs sk j st.s q1 (by omega)).bind fun s ⟨a1, a2⟩ => ?_
    refine (BS2POLp_ok ct (j * 320) st.bp q2 (by omega)).bind fun bp ⟨b1, b2⟩ => ?_
    refine (mulAcc_ok ht (j == 0) a1 b1 q3).bind fun o ⟨c1, c2, c3⟩ => ?_
    refine Ok.pure ⟨a1, c1, c2, fun _ => ?_⟩
    exact acc_step q4 (EqMod.of_dvd (by decide) c3) (negMul_congr' (m := 1024) (EqMod.of_dvd (by decide) a2) b2)
  · rintro st ⟨q1, q2, q3, q4⟩
    rw [show P.POLYVECCOMPRESSEDBYTES = P.L * 320 from rfl]
    refine (BS2POLT_ok P ct (P.L * 320) st.bp q2 (by omega)).bind fun cm ⟨a1, a2⟩ => ?_
    refine Ok.bind (decRound_ok P st.v cm q3 a1) fun r ⟨u1, u2⟩ => ?_
    rw [POLmsg2BS_ok _ _ _ u1 (by omega)]
    refine Ok.pure ?_
    congr 1
    apply pack_congr (by omega)
    rw [show toP r = fun k => ((toP st.v k + Saber.h2 P - 2 ^ (10 - P.ET) * toP cm k) / 512) % 65536 from funext u2]
    refine decodeMsg_congr' P ?_ a2
    have e : acc (fun j => negMul (unpack 10 (ct.drop (j * 320))) (skPoly cs sk j)) P.L = innerProd (unpackVec 10 P.L ct) (skVec P cs sk) := by
      funext k
      unfold acc innerProd
      rw [Finset.sum_range]
      refine Finset.sum_congr rfl fun i _ => ?_
      beta_reduce
      rw [skPoly_vec]
      unfold unpackVec
      rw [Nat.mul_comm]
    rw [← e]
    exact q4 hL

end Saber.M4
