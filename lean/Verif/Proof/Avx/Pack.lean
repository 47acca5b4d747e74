import Verif.Model.Avx.Pack
import Verif.Model.Avx.Indcpa
import Verif.Spec.USaber
import Verif.Proof.Indcpa
import Verif.Proof.Avx.Vector
/-!
# Packing and sampling of the AVX2 implementation
-/
namespace Saber.Avx
open Spec

/-- What the proofs use of the symmetric functions. -/
structure LibOk (lib : Lib) (sym : USpec.Sym) : Prop where
  prf : ∀ (out : List Byte) (outOff outlen : Nat) (inp : List Byte) (inOff : Nat), outlen ≤ 2 ^ 36 → outOff + outlen ≤ out.length → inOff + 32 ≤ inp.length →
    lib.prf out outOff outlen inp inOff 32 = .ok (writeAt out outOff (sym.prf ((inp.drop inOff).take 32) outlen))
  h : ∀ (out : List Byte) (outOff : Nat) (inp : List Byte) (inOff inlen : Nat), inlen < 2 ^ 61 → outOff + 32 ≤ out.length →
    inOff + inlen ≤ inp.length → lib.hash_h out outOff inp inOff inlen = .ok (writeAt out outOff (sym.H ((inp.drop inOff).take inlen)))
  g : ∀ (out : List Byte) (outOff : Nat) (inp : List Byte) (inOff inlen : Nat), inlen < 2 ^ 61 → outOff + 64 ≤ out.length →
    inOff + inlen ≤ inp.length → lib.hash_g out outOff inp inOff inlen = .ok (writeAt out outOff (sym.G ((inp.drop inOff).take inlen)))
  lenPrf : ∀ (seed : List Byte) (n : Nat), seed.length = 32 → (sym.prf seed n).length = n
  lenH : ∀ x : List Byte, (sym.H x).length = 32
  lenG : ∀ x : List Byte, (sym.G x).length = 64

/-- The specification's parameters. -/
abbrev spec (P : PSet) (sym : USpec.Sym) : USpec.Params := ⟨P.L, P.MU, P.ET, false, sym⟩

/-! ### Packing -/

theorem SABER_pack_ok (P : PSet) {bytes : List Byte} {data : List (BitVec 16)} (hd : data.length = 256) (hb : bytes.length = 32 * P.ET) :
    SABER_pack P bytes data = .ok (pack P.ET (toP data)) := by
  have e : SABER_pack P bytes data = POLT2BS P bytes 0 data := by cases P <;> rfl
  rw [e, POLT2BS_ok P _ _ _ hd (by omega), writeAt_full _ _ (by rw [length_pack, hb])]

theorem SABER_un_pack_ok (P : PSet) {bytes : List Byte} {data : List (BitVec 16)} (hd : data.length = 256) (hb : bytes.length = 32 * P.ET) :
    SABER_un_pack P bytes data = .ok (ofP (unpack P.ET bytes)) := by
  have e : SABER_un_pack P bytes data = BS2POLT P bytes 0 data := by cases P <;> rfl
  rw [e, BS2POLT_ok P _ _ _ hd (by omega), List.drop_zero]

theorem POLVECp2BS_ok (P : PSet) {bytes : List Byte} {data : List (List (BitVec 16))} (hd : IsVec P.L data) (hb : P.L * 320 ≤ bytes.length) :
    POLVEC2BS P bytes data 1024 = .ok (writeAt bytes 0 (packVec 10 (toV P.L data))) := by
  show POLVECp2BS P bytes data = _
  rw [← Saber.POLVECp2BS_ok P bytes 0 data hd (by omega)]
  refine loop_congr fun i a _ => ?_
  rw [show i * (N * 10) / 8 = 0 + i * POLYCOMPRESSEDBYTES by simp only [N, POLYCOMPRESSEDBYTES, EP]; omega]

theorem POLVECq2BS_ok (P : PSet) {bytes : List Byte} {data : List (List (BitVec 16))} (hd : IsVec P.L data) (hb : P.L * 416 ≤ bytes.length) :
    POLVEC2BS P bytes data 8192 = .ok (writeAt bytes 0 (packVec 13 (toV P.L data))) := by
  show POLVECq2BS P bytes data = _
  rw [← Saber.POLVECq2BS_ok P bytes 0 data hd (by omega)]
  refine loop_congr fun i a _ => ?_
  rw [show i * (N * 13) / 8 = 0 + i * POLYBYTES by simp only [N, POLYBYTES, EQ]; omega]

theorem BS2POLVECp_ok (P : PSet) {bytes : List Byte} {off : Nat} {data : List (List (BitVec 16))} (hd : IsVec P.L data)
    (hb : off + P.L * 320 ≤ bytes.length) : BS2POLVEC P bytes off data 1024 = .ok (ofV (unpackVec 10 P.L (bytes.drop off))) := by
  show BS2POLVECp P bytes off data = _
  rw [← Saber.BS2POLVECp_ok P bytes off data hd (by omega)]
  refine loop_congr fun i a _ => ?_
  rw [show i * (N * 10) / 8 = i * POLYCOMPRESSEDBYTES by simp only [N, POLYCOMPRESSEDBYTES, EP]; omega]

theorem BS2POLVECq_ok (P : PSet) {bytes : List Byte} {off : Nat} {data : List (List (BitVec 16))} (hd : IsVec P.L data)
    (hb : off + P.L * 416 ≤ bytes.length) : BS2POLVEC P bytes off data 8192 = .ok (ofV (unpackVec 13 P.L (bytes.drop off))) := by
  show BS2POLVECq P bytes off data = _
  rw [← Saber.BS2POLVECq_ok P bytes off data hd (by omega)]
  refine loop_congr fun i a _ => ?_
  rw [show i * (N * 13) / 8 = i * POLYBYTES by simp only [N, POLYBYTES, EQ]; omega]

/-! ### Sampling -/

/-- Coefficients reduced modulo `2^13`. -/
def redP (p : Poly) : Poly := fun k => p k % 8192

theorem redP_eqMod {m : Int} (hm : m ∣ 8192) (p : Poly) : EqMod m (redP p) p := fun _ => Int.emod_emod_of_dvd _ hm

theorem and8191 (x : BitVec 16) : (x &&& 8191).toNat = x.toNat % 8192 := by
  rw [BitVec.toNat_and]
  exact Nat.and_two_pow_sub_one_eq_mod x.toNat 13

theorem and_ofInt (x : Int) : BitVec.ofInt 16 x &&& 8191 = BitVec.ofInt 16 (x % 8192) := by
  apply BitVec.eq_of_toNat_eq
  rw [and8191, BitVec.toNat_ofInt, BitVec.toNat_ofInt]
  norm_num
  omega

theorem map_and_ofP (p : Poly) : (ofP p).map (· &&& 8191) = ofP (redP p) := by
  unfold ofP
  rw [List.map_map]
  exact List.map_congr_left fun i _ => and_ofInt _

theorem toP_ofP_redP (p : Poly) : EqMod 8192 (toP (ofP (redP p))) p :=
  EqMod.trans (toP_ofP_mod _ _ (by decide)) (redP_eqMod (by decide) p)

theorem maskLoop {r : List (BitVec 16)} (hr : r.length = 256) (vs : Nat → List (BitVec 16)) (hv : ∀ i, (vs i).length = 4) {p : Poly}
    {body body' : Nat → List (BitVec 16) → CM (List (BitVec 16))} (h : loop 64 r body = .ok (ofP p))
    (hb : ∀ i r, i < 64 → body i r = wrs r (4 * i) (vs i)) (hb' : ∀ i r, i < 64 → body' i r = wrs r (4 * i) ((vs i).map (· &&& 8191))) :
    loop 64 r body' = .ok (ofP (redP p)) := by
  rw [loop_blocks 4 vs hv 64 r 0 (by omega) body (fun i a hi _ => by rw [hb i a hi, Nat.zero_add]),
    writeAt_full _ _ (by rw [length_flatMap_range 4 vs hv, hr])] at h
  rw [loop_blocks 4 (fun i => (vs i).map (· &&& 8191)) (fun i => by rw [List.length_map, hv i]) 64 r 0 (by omega) body'
    (fun i a hi _ => by rw [hb' i a hi, Nat.zero_add]),
    writeAt_full _ _ (by rw [length_flatMap_range 4 _ (fun i => by rw [List.length_map, hv i]), hr]), ← map_and_ofP,
    ← Except.ok.inj h, List.map_flatMap]

theorem cbd_ok (P : PSet) {r : List (BitVec 16)} {buf : List Byte} {off : Nat} (hr : r.length = 256) (hb : off + P.MU * 32 ≤ buf.length) :
    cbd P r buf off = .ok (ofP (redP (centredBinomial P.MU (buf.drop off)))) := by
  have h := Saber.cbd_ok P r buf off hr (by cases P <;> exact hb)
  cases P with
  | light =>
    have hb' : off + 320 ≤ buf.length := hb
    have hT : ∀ i, i < 64 → load_littleendian buf (off + 5 * i) 5 = .ok ((load_littleendian buf (off + 5 * i) 5).toOption.getD 0) := by
      intro i hi
      obtain ⟨r, h1, -⟩ := load_littleendian_ok buf (off + 5 * i) 5 (by omega) (by omega)
      rw [h1]; rfl
    exact maskLoop hr (fun i => cbdBlk10 ((load_littleendian buf (off + 5 * i) 5).toOption.getD 0)) (fun _ => rfl) h
      (fun i r hi => by rw [hT i hi]; rfl) (fun i r hi => by rw [hT i hi]; rfl)
  | saber =>
    have hb' : off + 256 ≤ buf.length := hb
    have hT : ∀ i, i < 64 → load_littleendian buf (off + 4 * i) 4 = .ok ((load_littleendian buf (off + 4 * i) 4).toOption.getD 0) := by
      intro i hi
      obtain ⟨r, h1, -⟩ := load_littleendian_ok buf (off + 4 * i) 4 (by omega) (by omega)
      rw [h1]; rfl
    exact maskLoop hr (fun i => cbdBlk8 (((load_littleendian buf (off + 4 * i) 4).toOption.getD 0).setWidth 32)) (fun _ => rfl) h
      (fun i r hi => by rw [hT i hi]; rfl) (fun i r hi => by rw [hT i hi]; rfl)
  | fire =>
    have hb' : off + 192 ≤ buf.length := hb
    have hT : ∀ i, i < 64 → load_littleendian buf (off + 3 * i) 3 = .ok ((load_littleendian buf (off + 3 * i) 3).toOption.getD 0) := by
      intro i hi
      obtain ⟨r, h1, -⟩ := load_littleendian_ok buf (off + 3 * i) 3 (by omega) (by omega)
      rw [h1]; rfl
    exact maskLoop hr (fun i => cbdBlk6 (((load_littleendian buf (off + 3 * i) 3).toOption.getD 0).setWidth 32)) (fun _ => rfl) h
      (fun i r hi => by rw [hT i hi]; rfl) (fun i r hi => by rw [hT i hi]; rfl)

theorem modRow_ok {dst temp_ar : List (BitVec 16)} (hd : dst.length = 256) (ht : temp_ar.length = 256) :
    modRow dst temp_ar = .ok (temp_ar.map (· &&& 8191)) := by
  unfold modRow
  rw [show N = 256 from rfl, loop_rows 256 dst hd 0 (fun k => temp_ar.getD k 0 &&& 8191)]
  · congr 1
    apply ext_getD 0
    · simp [ht]
    · intro m hm
      rw [List.length_map, List.length_range] at hm
      rw [getD_map_range _ _ _ _ hm, List.getD_eq_getElem _ _ (by omega), List.getD_eq_getElem _ _ (by simp; omega), List.getElem_map]
  · intro i a hi ha _
    rw [rd_ok 0 (by omega), ok_bind, wr_ok (by omega)]

theorem redP_unpack (bs : List Byte) : redP (unpack 13 bs) = unpack 13 bs := by
  funext k
  have := unpack_range 13 bs k
  exact Int.emod_eq_of_lt this.1 (by norm_num at this; omega)

theorem GenMatrix_ok {lib : Lib} {sym : USpec.Sym} (hlib : LibOk lib sym) (P : PSet) {a : List (List (List (BitVec 16)))} (ha : IsMat P.L a)
    {seed : List Byte} (hs : seed.length = 32) :
    GenMatrix lib P a seed = .ok (ofM (USpec.genMatrix (spec P sym) seed)) := by
  have hl := hlib.lenPrf seed (P.L * P.L * 416) hs
  unfold GenMatrix USpec.genMatrix
  dsimp only
  rw [show 13 * N / 8 = 416 from rfl, show SEEDBYTES = 32 from rfl, hlib.prf _ _ _ _ _ (by cases P <;> decide) (by simp) (by omega), ok_bind, List.drop_zero,
    List.take_of_length_le (by omega), writeAt_full _ _ (by rw [length_uninit, hl])]
  rw [show (spec P sym).eq = 13 from rfl, show 32 * 13 = 416 from rfl]
  generalize sym.prf seed (P.L * P.L * 416) = buf at *
  let E : Nat → Nat → List (BitVec 16) := fun i j => ofP (unpack 13 (buf.drop ((i * P.L + j) * 416)))
  suffices h : Ok (loop P.L (a, uninit 16 131 N) fun i x => loop P.L (x.1, x.2) fun j x => do
      let temp_ar ← BS2POLq buf ((i * P.L + j) * 416) x.2
      let ai ← rd x.1 i
      let aij ← rd ai j
      let aij ← modRow aij temp_ar
      let ai ← wr ai j aij
      let a ← wr x.1 i ai
      .ok (a, temp_ar)) fun x => x.1 = (List.range P.L).map fun i => (List.range P.L).map (E i) by
    obtain ⟨x, h1, h2⟩ := h
    refine (congrArg (fun z => z >>= fun x => Except.ok x.1) h1).trans ?_
    rw [ok_bind, h2]
    refine congrArg _ ?_
    unfold ofM ofV
    rw [← finRange_map_val]
    refine List.map_congr_left fun i _ => ?_
    rw [← finRange_map_val]
  refine (loop_inv (fun n (x : List (List (List (BitVec 16))) × List (BitVec 16)) => IsMat P.L x.1 ∧ x.2.length = 256 ∧
    ∀ i < n, ∀ j < P.L, (x.1.getD i []).getD j [] = E i j) ⟨ha, by simp [N], fun i hi => absurd hi (by omega)⟩ ?_).mono ?_
  · rintro i ⟨a, t⟩ hi ⟨hA, ht, h⟩
    refine (loop_inv (fun n (x : List (List (List (BitVec 16))) × List (BitVec 16)) => IsMat P.L x.1 ∧ x.2.length = 256 ∧
      (∀ i' < i, ∀ j < P.L, (x.1.getD i' []).getD j [] = E i' j) ∧ ∀ j < n, (x.1.getD i []).getD j [] = E i j)
      ⟨hA, ht, h, fun j hj => absurd hj (by omega)⟩ ?_).mono ?_
    · rintro j ⟨a, t⟩ hj ⟨hA, ht, h, h'⟩
      dsimp only at *
      have hbd : (i * P.L + j) * 416 + 416 ≤ buf.length := by
        rw [hl, ← Nat.succ_mul]
        refine Nat.mul_le_mul_right _ ?_
        have := Nat.mul_le_mul_right P.L (show i + 1 ≤ P.L from hi)
        rw [Nat.succ_mul] at this
        omega
      have hAi := hA.2 i hi
      rw [show BS2POLq = Saber.BS2POLq from rfl, Saber.BS2POLq_ok _ _ _ ht hbd, ok_bind, rd_ok [] (by rw [hA.1]; exact hi), ok_bind,
        rd_ok [] (by rw [hAi.1]; exact hj), ok_bind, modRow_ok (hAi.2 j hj) (by simp), ok_bind, wr_ok (by rw [hAi.1]; exact hj), ok_bind,
        wr_ok (by rw [hA.1]; exact hi), ok_bind, map_and_ofP, redP_unpack]
      refine Ok.pure ⟨⟨by simp [hA.1], fun i' hi' => ?_⟩, by simp, fun i' hi' j' hj' => ?_, fun j' hj' => ?_⟩
      · dsimp only
        rw [getD_set]
        split
        · refine ⟨by rw [List.length_set]; exact hAi.1, fun j' hj' => ?_⟩
          rw [getD_set]
          split
          · simp
          · exact hAi.2 j' hj'
        · exact hA.2 i' hi'
      · dsimp only
        rw [getD_set, if_neg (by omega)]
        exact h i' hi' j' hj'
      · dsimp only
        rw [getD_set, if_pos ⟨rfl, by rw [hA.1]; exact hi⟩, getD_set]
        by_cases hjj : j = j'
        · subst hjj
          rw [if_pos ⟨rfl, by rw [hAi.1]; exact hj⟩]
        · rw [if_neg (by tauto)]
          exact h' j' (by omega)
    · rintro ⟨a, t⟩ ⟨hA, ht, h, h'⟩
      refine ⟨hA, ht, fun i' hi' j hj => ?_⟩
      by_cases hii : i' = i
      · subst hii; exact h' j hj
      · exact h i' (by omega) j hj
  · rintro ⟨a, t⟩ ⟨hA, ht, h⟩
    dsimp only at *
    apply ext_getD []
    · simp [hA.1]
    · intro i hi
      rw [hA.1] at hi
      rw [getD_map_range _ _ _ _ hi]
      apply ext_getD []
      · rw [(hA.2 i hi).1]; simp
      · intro j hj
        rw [(hA.2 i hi).1] at hj
        rw [getD_map_range _ _ _ _ hj]
        exact h i hi j hj

/-- The secret vector as it is stored: reduced modulo `2^13`. -/
def redV {L : Nat} (v : PVec L) : PVec L := fun i => redP (v i)

theorem GenSecret_ok {lib : Lib} {sym : USpec.Sym} (hlib : LibOk lib sym) (P : PSet) {r : List (List (BitVec 16))} (hr : IsVec P.L r)
    {seed : List Byte} {off : Nat} (hb : off + 32 ≤ seed.length) :
    GenSecret lib P r seed off = .ok (ofV (redV (USpec.genSecret (spec P sym) ((seed.drop off).take 32)))) := by
  have hsl : ((seed.drop off).take 32).length = 32 := by rw [List.length_take, List.length_drop]; omega
  have hl := hlib.lenPrf ((seed.drop off).take 32) (P.L * P.MU * 32) hsl
  have e : P.MU * N * P.L / 8 = P.L * P.MU * 32 := by cases P <;> rfl
  unfold GenSecret USpec.genSecret
  dsimp only
  rw [e, show NOISE_SEEDBYTES = 32 from rfl, hlib.prf _ _ _ _ _ (by cases P <;> decide) (by simp) hb, ok_bind, writeAt_full _ _ (by rw [length_uninit, hl])]
  rw [show (spec P sym).coinBits = P.MU from rfl]
  generalize sym.prf ((seed.drop off).take 32) (P.L * P.MU * 32) = buf at *
  rw [loop_rows P.L r hr.1 [] (fun i => ofP (redP (centredBinomial P.MU (buf.drop (i * P.MU * 32)))))]
  · rw [← finRange_map_val]; rfl
  · intro i a hi ha he
    have hbd : i * P.MU * 32 + P.MU * 32 ≤ buf.length := by
      rw [hl, ← Nat.add_mul, ← Nat.succ_mul]
      exact Nat.mul_le_mul_right _ (Nat.mul_le_mul_right _ hi)
    have eo : i * P.MU * N / 8 = i * P.MU * 32 := by simp only [N]; omega
    rw [rd_ok [] (by omega), ok_bind, he, eo, cbd_ok P (hr.2 i hi) hbd, ok_bind, wr_ok (by omega)]

end Saber.Avx
