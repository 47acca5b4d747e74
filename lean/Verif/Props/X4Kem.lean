import Verif.Proof.X4.Overrun
import Verif.Props.X4
/-!
# C60, C61, C62: packing and KEM of `Variants/SaberX4_avx2`

A family `x : Fin 4 → _` is the four variables `x0, x1, x2, x3`.
-/
namespace Saber.Props
open Spec X4

/-! ### C60: packing -/

/-- Three polynomials are in `__m256i v[3][16]`: element `t` of `v[i][j]` is coefficient `16 j + t` of polynomial `i`. -/
def Holds (v : List (List Avx.Vec)) (p : Fin 3 → Poly) : Prop :=
  v.length = 3 ∧ (∀ i < 3, (v.getD i []).length = 16) ∧
    ∀ (i : Fin 3) (j t : Fin 16), ((v.getD i []).getD j fun _ => 0) t = BitVec.ofInt 16 (p i ⟨16 * j + t, by omega⟩)

theorem holds_vecsV (p : Fin 3 → Poly) : Holds (Avx.vecsV .saber (ofV p)) p := by
  refine ⟨(Avx.isVV_vecsV .saber _).1, (Avx.isVV_vecsV .saber _).2, fun i j t => ?_⟩
  rw [Avx.getD_vecsV _ _ i.isLt, Avx.vecsOf, getD_map_range _ _ _ _ j.isLt]
  have e : (ofV p).getD i.val [] = ofP (p i) := by
    unfold ofV
    simp
  rw [e, ofP, getD_map_range _ _ _ _ (by omega)]
  congr 2
  exact Fin.ext (by simp only [Fin.ofNat]; omega)

/-- C60: `POLVEC2BSX4` with modulus `2^10` writes the same bytes to each of the four buffers as the reference implementation's
`POLVECp2BS` on the corresponding vector. -/
theorem C60_pack_p (bytes : Fam (List Byte)) (off : Fam Nat) (data : Fam (List (List (BitVec 16)))) (hd : ∀ l, IsVec 3 (data l))
    (hb : ∀ l, off l + 960 ≤ (bytes l).length) :
    ∃ out, POLVEC2BSX4 bytes off data 1024 = .ok out ∧
      ∀ l, Wrote (bytes l) (off l) (packVec 10 (toV 3 (data l))) (out l) ∧ POLVECp2BS .saber (bytes l) (off l) (data l) = .ok (out l) :=
  ⟨_, POLVEC2BSX4_p bytes off data hd hb, fun l => ⟨wrote_writeAt (by rw [length_packVec]; exact hb l), POLVECp2BS_ok .saber _ _ _ (hd l) (hb l)⟩⟩

/-- C60: `POLVEC2BSX4` with modulus `2^13`, likewise. -/
theorem C60_pack_q (bytes : Fam (List Byte)) (off : Fam Nat) (data : Fam (List (List (BitVec 16)))) (hd : ∀ l, IsVec 3 (data l))
    (hb : ∀ l, off l + 1248 ≤ (bytes l).length) :
    ∃ out, POLVEC2BSX4 bytes off data 8192 = .ok out ∧
      ∀ l, Wrote (bytes l) (off l) (packVec 13 (toV 3 (data l))) (out l) ∧ POLVECq2BS .saber (bytes l) (off l) (data l) = .ok (out l) :=
  ⟨_, POLVEC2BSX4_q bytes off data hd hb, fun l => ⟨wrote_writeAt (by rw [length_packVec]; exact hb l), POLVECq2BS_ok .saber _ _ _ (hd l) (hb l)⟩⟩

/-- C60: `BS2POLVECX4` with modulus `2^10` or `2^13` reads the vector packed in each of the four byte strings. -/
theorem C60_unpack (bs : Fam (List Byte)) (off : Fam Nat) (data : Fam (List (List Avx.Vec))) (hd : ∀ l, Avx.IsVV 3 16 (data l))
    (k : Nat) (hk : k = 10 ∨ k = 13) (hb : ∀ l, off l + 96 * k ≤ (bs l).length) :
    ∃ out, BS2POLVECX4 bs off data (2 ^ k) = .ok out ∧ ∀ l, Holds (out l) (unpackVec k 3 ((bs l).drop (off l))) := by
  rcases hk with rfl | rfl
  · exact ⟨_, BS2POLVECX4_p bs off data hd hb, fun l => holds_vecsV _⟩
  · exact ⟨_, BS2POLVECX4_q bs off data hd hb, fun l => holds_vecsV _⟩

/-- C60: reading what was written gives back the four vectors modulo `2^k`. -/
theorem C60_round_trip (bytes : Fam (List Byte)) (off : Fam Nat) (data : Fam (List (List (BitVec 16)))) (hd : ∀ l, IsVec 3 (data l))
    (v : Fam (List (List Avx.Vec))) (hv : ∀ l, Avx.IsVV 3 16 (v l)) (k : Nat) (hk : k = 10 ∨ k = 13) (hb : ∀ l, off l + 96 * k ≤ (bytes l).length) :
    ∃ out v', POLVEC2BSX4 bytes off data (2 ^ k) = .ok out ∧ BS2POLVECX4 out off v (2 ^ k) = .ok v' ∧
      ∀ l, Holds (v' l) fun i n => toP ((data l).getD i []) n % 2 ^ k := by
  have key : ∃ out, POLVEC2BSX4 bytes off data (2 ^ k) = .ok out ∧ ∀ l, out l = writeAt (bytes l) (off l) (packVec k (toV 3 (data l))) := by
    rcases hk with rfl | rfl
    · exact ⟨_, POLVEC2BSX4_p bytes off data hd hb, fun l => rfl⟩
    · exact ⟨_, POLVEC2BSX4_q bytes off data hd hb, fun l => rfl⟩
  obtain ⟨out, h1, h2⟩ := key
  have hl : ∀ l, (packVec k (toV 3 (data l))).length = 96 * k := fun l => by rw [length_packVec]; omega
  obtain ⟨v', h3, h4⟩ := C60_unpack out off v hv k hk fun l => by rw [h2 l, length_writeAt _ _ _ (by rw [hl l]; exact hb l)]; exact hb l
  refine ⟨out, v', h1, h3, fun l => ?_⟩
  have e : unpackVec k 3 ((out l).drop (off l)) = fun (i : Fin 3) n => toP ((data l).getD i []) n % 2 ^ k := by
    funext i n
    have hdr : (out l).drop (off l) = packVec k (toV 3 (data l)) ++ (bytes l).drop (off l + 96 * k) := by
      have := hb l
      rw [h2 l, writeAt, List.append_assoc, List.drop_append_of_le_length (by simp; omega), List.drop_of_length_le (by simp), List.nil_append, hl l]
    rw [hdr, unpackVec_packVec]
    rfl
  rw [← e]
  exact h4 l

/-- The hypotheses are met: four different vectors. -/
example : (∀ l : Fin 4, IsVec 3 (ofV fun (i : Fin 3) k => (100 * l.val + 10 * i.val + k.val : Int))) ∧ (∀ l : Fin 4, 0 + 96 * 13 ≤ (List.replicate 1248 (BitVec.ofNat 8 l)).length) ∧
    Avx.IsVV 3 16 (Avx.uninitVV 1 3 16) := ⟨fun l => isVec_ofV _, fun l => by rw [List.length_replicate], Avx.isVV_uninitVV _ _ _⟩

/-! ### C61: the KEM with the arrays of `shake128x4` enlarged -/

/-- Byte string number `l` of four concatenated ones of `n` bytes. -/
def part (n : Nat) (x : List Byte) (l : Nat) : List Byte := (x.drop (l * n)).take n

/-- Four calls of the reference implementation's `crypto_kem_keypair`, one after the other, on the four parts of the buffers. -/
def fourKeypairs {σ : Type} (rb : RandomBytes σ) (pk sk : List Byte) (st : σ) : CM (Int × List Byte × List Byte × σ) := do
  let (_, p0, s0, st) ← Saber.crypto_kem_keypair .saber rb (part 992 pk 0) (part 2304 sk 0) st
  let (_, p1, s1, st) ← Saber.crypto_kem_keypair .saber rb (part 992 pk 1) (part 2304 sk 1) st
  let (_, p2, s2, st) ← Saber.crypto_kem_keypair .saber rb (part 992 pk 2) (part 2304 sk 2) st
  let (_, p3, s3, st) ← Saber.crypto_kem_keypair .saber rb (part 992 pk 3) (part 2304 sk 3) st
  .ok (0, p0 ++ p1 ++ p2 ++ p3, s0 ++ s1 ++ s2 ++ s3, st)

/-- Four calls of the reference implementation's `crypto_kem_enc`. -/
def fourEncs {σ : Type} (rb : RandomBytes σ) (c k pk : List Byte) (st : σ) : CM (Int × List Byte × List Byte × σ) := do
  let (_, c0, k0, st) ← Saber.crypto_kem_enc .saber rb (part 1088 c 0) (part 32 k 0) (part 992 pk 0) st
  let (_, c1, k1, st) ← Saber.crypto_kem_enc .saber rb (part 1088 c 1) (part 32 k 1) (part 992 pk 1) st
  let (_, c2, k2, st) ← Saber.crypto_kem_enc .saber rb (part 1088 c 2) (part 32 k 2) (part 992 pk 2) st
  let (_, c3, k3, st) ← Saber.crypto_kem_enc .saber rb (part 1088 c 3) (part 32 k 3) (part 992 pk 3) st
  .ok (0, c0 ++ c1 ++ c2 ++ c3, k0 ++ k1 ++ k2 ++ k3, st)

/-- Four calls of the reference implementation's `crypto_kem_dec`. -/
def fourDecs (k c sk : List Byte) : CM (Int × List Byte) := do
  let (_, k0) ← Saber.crypto_kem_dec .saber (part 32 k 0) (part 1088 c 0) (part 2304 sk 0)
  let (_, k1) ← Saber.crypto_kem_dec .saber (part 32 k 1) (part 1088 c 1) (part 2304 sk 1)
  let (_, k2) ← Saber.crypto_kem_dec .saber (part 32 k 2) (part 1088 c 2) (part 2304 sk 2)
  let (_, k3) ← Saber.crypto_kem_dec .saber (part 32 k 3) (part 1088 c 3) (part 2304 sk 3)
  .ok (0, k0 ++ k1 ++ k2 ++ k3)

theorem x4_spec : X4.spec = Avx.spec .saber (U.Cfg.sym ⟨.saber, false, false⟩) := rfl

theorem x4_pk (a b : List Byte) : USpec.kemPk X4.spec a b = kemPk (params .saber) a b := by rw [x4_spec, avx_spec, plain_kemPk]
theorem x4_sk (a b z : List Byte) : USpec.kemSk X4.spec a b z = kemSk (params .saber) a b z := by rw [x4_spec, avx_spec, plain_kemSk]
theorem x4_c (m pk : List Byte) : USpec.encapsC X4.spec m pk = encapsC (params .saber) m pk := by rw [x4_spec, avx_spec, plain_encapsC]
theorem x4_k (m pk : List Byte) : USpec.encapsK X4.spec m pk = encapsK (params .saber) m pk := by rw [x4_spec, avx_spec, plain_encapsK]
theorem x4_dec (sk c : List Byte) : USpec.decaps X4.spec sk c = decaps (params .saber) sk c := by rw [x4_spec, avx_spec, plain_decaps]

/-- C61: key generation draws twelve times 32 bytes (seed, noise seed and rejection key of pair 0, then of pair 1, ...) and makes the four key
pairs of the specification. -/
theorem C61_keypair_spec {σ : Type} (rb : RandomBytes σ) (st : Nat → σ) (x y z : Fam (List Byte))
    (hx : ∀ l : Fin 4, Delivers rb 32 (st (3 * l)) (x l) (st (3 * l + 1))) (hy : ∀ l : Fin 4, Delivers rb 32 (st (3 * l + 1)) (y l) (st (3 * l + 2)))
    (hz : ∀ l : Fin 4, Delivers rb 32 (st (3 * l + 2)) (z l) (st (3 * l + 3))) (pk sk : List Byte) (hpk : pk.length = 3968) (hsk : sk.length = 9216) :
    crypto_kem_keypairWith 168 rb pk sk (st 0) =
      .ok (0, kemPk (params .saber) (x 0) (y 0) ++ kemPk (params .saber) (x 1) (y 1) ++ kemPk (params .saber) (x 2) (y 2) ++ kemPk (params .saber) (x 3) (y 3),
        kemSk (params .saber) (x 0) (y 0) (z 0) ++ kemSk (params .saber) (x 1) (y 1) (z 1) ++ kemSk (params .saber) (x 2) (y 2) (z 2) ++
          kemSk (params .saber) (x 3) (y 3) (z 3), st 12) := by
  have hpk' : pk.length = 4 * PKB := hpk
  have hsk' : sk.length = 4 * SKB := hsk
  unfold crypto_kem_keypairWith
  refine stepOk (crypto_kem_keypair4x_ok rb st x y z hx hy hz (slices PKB pk) (slices SKB sk) (fun l => length_slices hpk' l) (fun l => length_slices hsk' l)) ?_
  dsimp only
  rw [joined_eq hpk', joined_eq hsk']
  simp only [x4_pk, x4_sk]

/-- C61: encapsulation draws four times 32 bytes and makes the four ciphertexts and keys of the specification. -/
theorem C61_enc_spec {σ : Type} (rb : RandomBytes σ) (st : Nat → σ) (m : Fam (List Byte)) (hm : ∀ l : Fin 4, Delivers rb 32 (st l) (m l) (st (l + 1)))
    (c k pk : List Byte) (hc : c.length = 4352) (hk : k.length = 128) (hpk : pk.length = 3968) :
    crypto_kem_encWith 168 rb c k pk (st 0) =
      .ok (0, encapsC (params .saber) (m 0) (part 992 pk 0) ++ encapsC (params .saber) (m 1) (part 992 pk 1) ++ encapsC (params .saber) (m 2) (part 992 pk 2) ++
          encapsC (params .saber) (m 3) (part 992 pk 3),
        encapsK (params .saber) (m 0) (part 992 pk 0) ++ encapsK (params .saber) (m 1) (part 992 pk 1) ++ encapsK (params .saber) (m 2) (part 992 pk 2) ++
          encapsK (params .saber) (m 3) (part 992 pk 3), st 4) := by
  have hpk' : pk.length = 4 * PKB := hpk
  have hc' : c.length = 4 * CTB := hc
  have hk' : k.length = 4 * SSB := hk
  unfold crypto_kem_encWith
  refine stepOk (crypto_kem_enc4x_ok rb st m hm (slices CTB c) (slices SSB k) (slices PKB pk) (fun l => length_slices hc' l) (fun l => length_slices hk' l)
    (fun l => length_slices hpk' l)) ?_
  dsimp only
  rw [joined_eq hc', joined_eq hk']
  simp only [x4_c, x4_k]
  rfl

/-- C61: decapsulation computes the four keys of the specification, for all secret keys and ciphertexts. -/
theorem C61_dec_spec (k c sk : List Byte) (hk : k.length = 128) (hc : c.length = 4352) (hsk : sk.length = 9216) :
    crypto_kem_decWith 168 k c sk =
      .ok (0, decaps (params .saber) (part 2304 sk 0) (part 1088 c 0) ++ decaps (params .saber) (part 2304 sk 1) (part 1088 c 1) ++
        decaps (params .saber) (part 2304 sk 2) (part 1088 c 2) ++ decaps (params .saber) (part 2304 sk 3) (part 1088 c 3)) := by
  have hsk' : sk.length = 4 * SKB := hsk
  have hc' : c.length = 4 * CTB := hc
  have hk' : k.length = 4 * SSB := hk
  unfold crypto_kem_decWith
  refine stepOk (crypto_kem_dec4x_ok (slices SSB k) (slices CTB c) (slices SKB sk) (fun l => length_slices hk' l) (fun l => length_slices hc' l)
    (fun l => length_slices hsk' l)) ?_
  dsimp only
  rw [joined_eq hk']
  simp only [x4_dec]
  rfl

theorem length_part {n : Nat} {x : List Byte} (hx : x.length = 4 * n) {l : Nat} (hl : l < 4) : (part n x l).length = n :=
  length_slices hx ⟨l, hl⟩

/-- A random source that always delivers yields a sequence of draws. -/
theorem draw_sequence {σ : Type} (rb : RandomBytes σ) (hrb : ∀ st, ∃ r st', Delivers rb 32 st r st') (st : σ) :
    ∃ (s : Nat → σ) (r : Nat → List Byte), s 0 = st ∧ ∀ i, Delivers rb 32 (s i) (r i) (s (i + 1)) := by
  choose r n h using hrb
  exact ⟨fun i => n^[i] st, fun i => r (n^[i] st), rfl, fun i => by
    dsimp only; rw [Function.iterate_succ_apply']; exact h _⟩

/-- C61: one call of each batched function returns what four successive calls of the reference implementation return on the four parts of
the buffers, and leaves the random source in the same state. -/
theorem C61_equals_four_calls {σ : Type} (rb : RandomBytes σ) (hrb : ∀ st, ∃ r st', Delivers rb 32 st r st') (st : σ)
    (pk sk c k : List Byte) (hpk : pk.length = 3968) (hsk : sk.length = 9216) (hc : c.length = 4352) (hk : k.length = 128) :
    crypto_kem_keypairWith 168 rb pk sk st = fourKeypairs rb pk sk st ∧ crypto_kem_encWith 168 rb c k pk st = fourEncs rb c k pk st ∧
      crypto_kem_decWith 168 k c sk = fourDecs k c sk := by
  obtain ⟨s, r, rfl, h⟩ := draw_sequence rb hrb st
  have hp : ∀ l < 4, (part 992 pk l).length = PSet.PUBLICKEYBYTES .saber := fun l hl => length_part hpk hl
  have hs : ∀ l < 4, (part 2304 sk l).length = PSet.SECRETKEYBYTES .saber := fun l hl => length_part hsk hl
  have hcl : ∀ l < 4, (part 1088 c l).length = PSet.BYTES_CCA_DEC .saber := fun l hl => length_part hc hl
  have hkl : ∀ l < 4, (part 32 k l).length = 32 := fun l hl => length_part hk hl
  refine ⟨?_, ?_, ?_⟩
  · rw [C61_keypair_spec rb s (fun l => r (3 * l)) (fun l => r (3 * l + 1)) (fun l => r (3 * l + 2)) (fun l => h _) (fun l => h _) (fun l => h _) pk sk hpk hsk]
    unfold fourKeypairs
    rw [C01_keypair_spec .saber rb _ _ _ _ _ _ _ (h 0) (h 1) (h 2) _ _ (hp 0 (by decide)) (hs 0 (by decide)), ok_bind]
    dsimp only
    rw [C01_keypair_spec .saber rb _ _ _ _ _ _ _ (h 3) (h 4) (h 5) _ _ (hp 1 (by decide)) (hs 1 (by decide)), ok_bind]
    dsimp only
    rw [C01_keypair_spec .saber rb _ _ _ _ _ _ _ (h 6) (h 7) (h 8) _ _ (hp 2 (by decide)) (hs 2 (by decide)), ok_bind]
    dsimp only
    rw [C01_keypair_spec .saber rb _ _ _ _ _ _ _ (h 9) (h 10) (h 11) _ _ (hp 3 (by decide)) (hs 3 (by decide)), ok_bind]
    rfl
  · rw [C61_enc_spec rb s (fun l => r l) (fun l => h _) c k pk hc hk hpk]
    unfold fourEncs
    rw [C02_enc_spec .saber rb _ _ _ (h 0) _ _ _ (hcl 0 (by decide)) (hkl 0 (by decide)) (hp 0 (by decide)), ok_bind]
    dsimp only
    rw [C02_enc_spec .saber rb _ _ _ (h 1) _ _ _ (hcl 1 (by decide)) (hkl 1 (by decide)) (hp 1 (by decide)), ok_bind]
    dsimp only
    rw [C02_enc_spec .saber rb _ _ _ (h 2) _ _ _ (hcl 2 (by decide)) (hkl 2 (by decide)) (hp 2 (by decide)), ok_bind]
    dsimp only
    rw [C02_enc_spec .saber rb _ _ _ (h 3) _ _ _ (hcl 3 (by decide)) (hkl 3 (by decide)) (hp 3 (by decide)), ok_bind]
    rfl
  · rw [C61_dec_spec k c sk hk hc hsk]
    unfold fourDecs
    rw [C03_dec_spec .saber _ _ _ (hkl 0 (by decide)) (hcl 0 (by decide)) (hs 0 (by decide)), ok_bind]
    dsimp only
    rw [C03_dec_spec .saber _ _ _ (hkl 1 (by decide)) (hcl 1 (by decide)) (hs 1 (by decide)), ok_bind]
    dsimp only
    rw [C03_dec_spec .saber _ _ _ (hkl 2 (by decide)) (hcl 2 (by decide)) (hs 2 (by decide)), ok_bind]
    dsimp only
    rw [C03_dec_spec .saber _ _ _ (hkl 3 (by decide)) (hcl 3 (by decide)) (hs 3 (by decide)), ok_bind]

/-! ### C62: the KEM as it is in the code -/

/-- C62, negation of the claim: every call of `crypto_kem_keypair`, `crypto_kem_enc` and `crypto_kem_dec` with buffers of the documented sizes has
undefined behaviour, whatever the buffers contain: `shake128x4` writes outside of its local arrays. -/
theorem C62_every_call_overruns {σ : Type} (rb : RandomBytes σ) (hrb : ∀ st, ∃ r st', Delivers rb 32 st r st') (st : σ)
    (pk sk c k : List Byte) (hpk : pk.length = 3968) (hsk : sk.length = 9216) (hc : c.length = 4352) :
    X4.crypto_kem_keypair rb pk sk st = .error .oob ∧ X4.crypto_kem_enc rb c k pk st = .error .oob ∧ X4.crypto_kem_dec k c sk = .error .oob := by
  obtain ⟨s, r, rfl, h⟩ := draw_sequence rb hrb st
  refine ⟨?_, ?_, ?_⟩
  · exact stepErr (keypair4x_overrun rb s (fun l => r (3 * l)) (fun l => r (3 * l + 1)) (fun l => r (3 * l + 2)) (fun l => h _) (fun l => h _) (fun l => h _) _ _)
  · exact stepErr (enc4x_overrun rb s (fun l => r l) (fun l => h _) _ _ _ fun l => length_slices (n := PKB) hpk l)
  · exact stepErr (dec4x_overrun _ _ _ (fun l => length_slices (n := CTB) hc l) fun l => length_slices (n := SKB) hsk l)

/-- C62: the size of the arrays is the only cause: with `SHAKE128_RATE` bytes none of the calls has undefined behaviour. -/
theorem C62_repaired_no_UB {σ : Type} (rb : RandomBytes σ) (hrb : ∀ st, ∃ r st', Delivers rb 32 st r st') (st : σ)
    (pk sk c k : List Byte) (hpk : pk.length = 3968) (hsk : sk.length = 9216) (hc : c.length = 4352) (hk : k.length = 128) :
    (∃ out, crypto_kem_keypairWith SHAKE128_RATE rb pk sk st = .ok out) ∧ (∃ out, crypto_kem_encWith SHAKE128_RATE rb c k pk st = .ok out) ∧
      (∃ out, crypto_kem_decWith SHAKE128_RATE k c sk = .ok out) := by
  obtain ⟨s, r, rfl, h⟩ := draw_sequence rb hrb st
  exact ⟨⟨_, C61_keypair_spec rb s (fun l => r (3 * l)) (fun l => r (3 * l + 1)) (fun l => r (3 * l + 2)) (fun l => h _) (fun l => h _) (fun l => h _) pk sk hpk hsk⟩,
    ⟨_, C61_enc_spec rb s (fun l => r l) (fun l => h _) c k pk hc hk hpk⟩, ⟨_, C61_dec_spec k c sk hk hc hsk⟩⟩

/-- A random source that delivers a counter. -/
def countRng : RandomBytes Nat := fun buf off n st => if off + n ≤ buf.length then .ok (writeAt buf off ((List.range n).map fun i => n8 (st + i)), st + n) else .error .oob

/-- The hypotheses are met: a source that delivers different bytes in each draw, and buffers of the documented sizes. -/
example : (∀ st, ∃ r st', Delivers countRng 32 st r st') ∧ (List.replicate 3968 (7 : Byte)).length = 3968 ∧
    X4.crypto_kem_dec (List.replicate 128 0) (List.replicate 4352 1) (List.replicate 9216 2) = .error .oob := by
  have hrb : ∀ st, ∃ r st', Delivers countRng 32 st r st' := fun st =>
    ⟨(List.range 32).map fun i => n8 (st + i), st + 32, by simp, fun buf off h => by rw [countRng, if_pos h]⟩
  exact ⟨hrb, List.length_replicate, (C62_every_call_overruns countRng hrb 0 (List.replicate 3968 0) (List.replicate 9216 2) (List.replicate 4352 1) (List.replicate 128 0)
    List.length_replicate List.length_replicate List.length_replicate).2.2⟩

end Saber.Props
