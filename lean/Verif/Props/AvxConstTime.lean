import Verif.Proof.Leak.EraseAvx
import Verif.Proof.Leak.ConstTimeAvx
import Verif.Props.Avx
/-!
# C71: control flow and memory addresses of the AVX2 code do not depend on secrets

`Leak.Avx.f` is the function `f` of the model with a record of all array accesses with their indices, all loads and stores of vectors with their
positions, all branches with their directions, all iterations of loops and all calls of `randombytes` (`Model/Leak`).
-/
namespace Saber.Props
open Spec Leak

instance fips202_erases : Leak.Avx.LibE Leak.Avx.fips202 Avx.fips202 where
  prf out o n inp i m := Leak.E_shake128 out o n inp i m
  hash_h out o inp i m := Leak.E_sha3_256 out o inp i m
  hash_g out o inp i m := Leak.E_sha3_512 out o inp i m

instance fips202_ct : Leak.Avx.LibCT Leak.Avx.fips202 Leak.Avx.fips202 where
  prf out out' o n inp inp' i m := Leak.CT_shake128 out out' o n inp inp' i m
  hash_h out out' o inp inp' i m := Leak.CT_sha3_256 out out' o inp inp' i m
  hash_g out out' o inp inp' i m := Leak.CT_sha3_512 out out' o inp inp' i m

/-- The symmetric functions of Variants/uSaber-90s/avx2 with events: the AES-NI key stream, and calls of OpenSSL that show positions and lengths;
compare `avx90s`. -/
def leak90s (l : ShaLib) : Leak.Avx.LLib :=
  ⟨fun out outOff outlen inp inOff _ => Leak.Avx.AesNi.saber_aes256ctr_prf out outOff outlen inp inOff,
    fun out outOff inp inOff inlen => ⟨[.call "SHA256" [outOff, inOff, inlen]], l.sha256 out outOff inp inOff inlen⟩,
    fun out outOff inp inOff inlen => ⟨[.call "SHA512" [outOff, inOff, inlen]], l.sha512 out outOff inp inOff inlen⟩⟩

instance s90_erases (l : ShaLib) : Leak.Avx.LibE (leak90s l) (avx90s l) where
  prf out o n inp i _ := Leak.Avx.AesNi.E_saber_aes256ctr_prf out o n inp i
  hash_h _ _ _ _ _ := rfl
  hash_g _ _ _ _ _ := rfl

instance s90_ct (l l' : ShaLib) : Leak.Avx.LibCT (leak90s l) (leak90s l') where
  prf out out' o n inp inp' i _ := Leak.Avx.AesNi.CT_saber_aes256ctr_prf out out' o n inp inp' i
  hash_h _ _ _ _ _ _ _ := ⟨fun _ _ _ _ => ⟨rfl, trivial⟩⟩
  hash_g _ _ _ _ _ _ _ := ⟨fun _ _ _ _ => ⟨rfl, trivial⟩⟩

/-- C71: leaving out the record gives the modelled functions, on all inputs. -/
theorem C71_same_functions {σ : Type} (P : PSet) (l : ShaLib) (rb : RandomBytes σ) (st : σ) (pk sk c k : List Byte) :
    ((Leak.Avx.crypto_kem_keypair Leak.Avx.fips202 P rb pk sk st).out = Avx.crypto_kem_keypair Avx.fips202 P rb pk sk st ∧
      (Leak.Avx.crypto_kem_enc Leak.Avx.fips202 P rb c k pk st).out = Avx.crypto_kem_enc Avx.fips202 P rb c k pk st ∧
      (Leak.Avx.crypto_kem_dec Leak.Avx.fips202 P k c sk).out = Avx.crypto_kem_dec Avx.fips202 P k c sk) ∧
    ((Leak.Avx.crypto_kem_keypair (leak90s l) P rb pk sk st).out = Avx.crypto_kem_keypair (avx90s l) P rb pk sk st ∧
      (Leak.Avx.crypto_kem_enc (leak90s l) P rb c k pk st).out = Avx.crypto_kem_enc (avx90s l) P rb c k pk st ∧
      (Leak.Avx.crypto_kem_dec (leak90s l) P k c sk).out = Avx.crypto_kem_dec (avx90s l) P k c sk) :=
  ⟨⟨Leak.Avx.E_crypto_kem_keypair _ _ P rb pk sk st, Leak.Avx.E_crypto_kem_enc _ _ P rb c k pk st, Leak.Avx.E_crypto_kem_dec _ _ P k c sk⟩,
    ⟨Leak.Avx.E_crypto_kem_keypair _ _ P rb pk sk st, Leak.Avx.E_crypto_kem_enc _ _ P rb c k pk st, Leak.Avx.E_crypto_kem_dec _ _ P k c sk⟩⟩

section
variable {ll : Leak.Avx.LLib} {lib : Avx.Lib} [Leak.Avx.LibE ll lib] {ll' : Leak.Avx.LLib} {lib' : Avx.Lib} [Leak.Avx.LibE ll' lib']
  [Leak.Avx.LibCT ll ll'] {S : USpec.Sym} (P : PSet)

theorem avx_keypair_trace (h : Avx.LibOk lib S) (h' : Avx.LibOk lib' S) {σ τ : Type} (rb : RandomBytes σ) (rb' : RandomBytes τ) (st st1 st2 st3 : σ)
    (st' st1' st2' st3' : τ) (r1 r2 z r1' r2' z' : List Byte) (h1 : Delivers rb 32 st r1 st1) (h2 : Delivers rb 32 st1 r2 st2)
    (h3 : Delivers rb 32 st2 z st3) (h1' : Delivers rb' 32 st' r1' st1') (h2' : Delivers rb' 32 st1' r2' st2') (h3' : Delivers rb' 32 st2' z' st3')
    (pk sk pk' sk' : List Byte) (hpk : pk.length = P.PUBLICKEYBYTES) (hsk : sk.length = P.SECRETKEYBYTES) (hpk' : pk'.length = P.PUBLICKEYBYTES)
    (hsk' : sk'.length = P.SECRETKEYBYTES) :
    (Leak.Avx.crypto_kem_keypair ll P rb pk sk st).trace = (Leak.Avx.crypto_kem_keypair ll' P rb' pk' sk' st').trace :=
  ((Leak.Avx.CT_crypto_kem_keypair ll ll' P rb rb' pk pk' sk sk' st st').same _ _
    ((Leak.Avx.E_crypto_kem_keypair ll lib P rb pk sk st).trans (Avx.crypto_kem_keypair_ok h P rb st st1 st2 st3 r1 r2 z h1 h2 h3 pk sk hpk hsk))
    ((Leak.Avx.E_crypto_kem_keypair ll' lib' P rb' pk' sk' st').trans
      (Avx.crypto_kem_keypair_ok h' P rb' st' st1' st2' st3' r1' r2' z' h1' h2' h3' pk' sk' hpk' hsk'))).1

theorem avx_enc_trace (h : Avx.LibOk lib S) (h' : Avx.LibOk lib' S) {σ τ : Type} (rb : RandomBytes σ) (rb' : RandomBytes τ) (st st1 : σ) (st' st1' : τ)
    (m m' : List Byte) (h1 : Delivers rb 32 st m st1) (h1' : Delivers rb' 32 st' m' st1') (c k pk c' k' pk' : List Byte)
    (hc : c.length = P.BYTES_CCA_DEC) (hk : k.length = 32) (hpk : pk.length = P.PUBLICKEYBYTES)
    (hc' : c'.length = P.BYTES_CCA_DEC) (hk' : k'.length = 32) (hpk' : pk'.length = P.PUBLICKEYBYTES) :
    (Leak.Avx.crypto_kem_enc ll P rb c k pk st).trace = (Leak.Avx.crypto_kem_enc ll' P rb' c' k' pk' st').trace :=
  ((Leak.Avx.CT_crypto_kem_enc ll ll' P rb rb' c c' k k' pk pk' st st').same _ _
    ((Leak.Avx.E_crypto_kem_enc ll lib P rb c k pk st).trans (Avx.crypto_kem_enc_ok h P rb st st1 m h1 c k pk hc hk hpk))
    ((Leak.Avx.E_crypto_kem_enc ll' lib' P rb' c' k' pk' st').trans (Avx.crypto_kem_enc_ok h' P rb' st' st1' m' h1' c' k' pk' hc' hk' hpk'))).1

theorem avx_dec_trace (h : Avx.LibOk lib S) (h' : Avx.LibOk lib' S) (k c sk k' c' sk' : List Byte) (hk : k.length = 32) (hc : c.length = P.BYTES_CCA_DEC)
    (hsk : sk.length = P.SECRETKEYBYTES) (hk' : k'.length = 32) (hc' : c'.length = P.BYTES_CCA_DEC) (hsk' : sk'.length = P.SECRETKEYBYTES) :
    (Leak.Avx.crypto_kem_dec ll P k c sk).trace = (Leak.Avx.crypto_kem_dec ll' P k' c' sk').trace :=
  ((Leak.Avx.CT_crypto_kem_dec ll ll' P k k' c c' sk sk').same _ _
    ((Leak.Avx.E_crypto_kem_dec ll lib P k c sk).trans (Avx.crypto_kem_dec_ok h P k c sk hk hc hsk))
    ((Leak.Avx.E_crypto_kem_dec ll' lib' P k' c' sk').trans (Avx.crypto_kem_dec_ok h' P k' c' sk' hk' hc' hsk'))).1
end

/-- C71: key generation of AVX_Implementation_KEM has one sequence of branches and addresses for each parameter set: it does not depend on the
generator and what it delivers, hence not on the keys. -/
theorem C71_keypair_constant_time (P : PSet) : ∃ events : List Event, ∀ {σ : Type} (rb : RandomBytes σ) (st st1 st2 st3 : σ) (r1 r2 z : List Byte),
    Delivers rb 32 st r1 st1 → Delivers rb 32 st1 r2 st2 → Delivers rb 32 st2 z st3 →
    ∀ pk sk : List Byte, pk.length = P.PUBLICKEYBYTES → sk.length = P.SECRETKEYBYTES →
      (Leak.Avx.crypto_kem_keypair Leak.Avx.fips202 P rb pk sk st).trace = events := by
  have l : (List.replicate 96 (0 : Byte)).length = 96 := List.length_replicate
  refine ⟨_, fun rb st st1 st2 st3 r1 r2 z h1 h2 h3 pk sk hpk hsk => avx_keypair_trace (ll := Leak.Avx.fips202) (ll' := Leak.Avx.fips202) P fips202_ok fips202_ok rb tapeRng st st1 st2 st3 _ _ _ _ r1 r2 z _ _ _
    h1 h2 h3 (tapeRng_delivers 32 (List.replicate 96 0) [] (by rw [l]; decide)) (tapeRng_delivers 32 _ _ (by rw [List.length_drop, l]; decide))
    (tapeRng_delivers 32 _ _ (by rw [List.length_drop, List.length_drop, l])) pk sk (List.replicate _ 0) (List.replicate _ 0) hpk hsk
    List.length_replicate List.length_replicate⟩

/-- C71: so has encapsulation, for every public key and all delivered random bytes. -/
theorem C71_enc_constant_time (P : PSet) : ∃ events : List Event, ∀ {σ : Type} (rb : RandomBytes σ) (st st1 : σ) (m : List Byte), Delivers rb 32 st m st1 →
    ∀ c k pk : List Byte, c.length = P.BYTES_CCA_DEC → k.length = 32 → pk.length = P.PUBLICKEYBYTES →
      (Leak.Avx.crypto_kem_enc Leak.Avx.fips202 P rb c k pk st).trace = events :=
  ⟨_, fun rb st st1 m h1 c k pk hc hk hpk => avx_enc_trace (ll := Leak.Avx.fips202) (ll' := Leak.Avx.fips202) P fips202_ok fips202_ok rb tapeRng st st1 _ _ m _ h1
    (tapeRng_delivers 32 (List.replicate 32 0) [] (by rw [List.length_replicate])) c k pk (List.replicate _ 0) (List.replicate _ 0) (List.replicate _ 0)
    hc hk hpk List.length_replicate List.length_replicate List.length_replicate⟩

/-- C71: so has decapsulation, for every secret key and every ciphertext: it does not depend on whether the ciphertext is accepted. -/
theorem C71_dec_constant_time (P : PSet) : ∃ events : List Event, ∀ k c sk : List Byte, k.length = 32 → c.length = P.BYTES_CCA_DEC →
    sk.length = P.SECRETKEYBYTES → (Leak.Avx.crypto_kem_dec Leak.Avx.fips202 P k c sk).trace = events :=
  ⟨_, fun k c sk hk hc hsk => avx_dec_trace (ll := Leak.Avx.fips202) (ll' := Leak.Avx.fips202) P fips202_ok fips202_ok k c sk (List.replicate _ 0) (List.replicate _ 0) (List.replicate _ 0) hk hc hsk
    List.length_replicate List.length_replicate List.length_replicate⟩

/-- A correct library for SHA-256 and SHA-512 (`sha_correct`). -/
def sha0 : ShaLib := ⟨U.hash_h ⟨.saber, false, true⟩, U.hash_g ⟨.saber, false, true⟩⟩

theorem sha0_correct : sha0.Correct := sha_correct

/-- C71: the same for the three functions of Variants/uSaber-90s/avx2, with the AES-NI key stream, whose branches depend on the block counter alone,
and whatever library computes SHA-256 and SHA-512. -/
theorem C71_90s_constant_time (P : PSet) : ∃ keypair enc dec : List Event, ∀ l : ShaLib, l.Correct →
    (∀ {σ : Type} (rb : RandomBytes σ) (st st1 st2 st3 : σ) (r1 r2 z : List Byte),
      Delivers rb 32 st r1 st1 → Delivers rb 32 st1 r2 st2 → Delivers rb 32 st2 z st3 →
      ∀ pk sk : List Byte, pk.length = P.PUBLICKEYBYTES → sk.length = P.SECRETKEYBYTES →
        (Leak.Avx.crypto_kem_keypair (leak90s l) P rb pk sk st).trace = keypair) ∧
    (∀ {σ : Type} (rb : RandomBytes σ) (st st1 : σ) (m : List Byte), Delivers rb 32 st m st1 →
      ∀ c k pk : List Byte, c.length = P.BYTES_CCA_DEC → k.length = 32 → pk.length = P.PUBLICKEYBYTES →
        (Leak.Avx.crypto_kem_enc (leak90s l) P rb c k pk st).trace = enc) ∧
    (∀ k c sk : List Byte, k.length = 32 → c.length = P.BYTES_CCA_DEC → sk.length = P.SECRETKEYBYTES →
      (Leak.Avx.crypto_kem_dec (leak90s l) P k c sk).trace = dec) := by
  have l96 : (List.replicate 96 (0 : Byte)).length = 96 := List.length_replicate
  refine ⟨(Leak.Avx.crypto_kem_keypair (leak90s sha0) P tapeRng (List.replicate P.PUBLICKEYBYTES 0) (List.replicate P.SECRETKEYBYTES 0) (List.replicate 96 0, [])).trace,
    (Leak.Avx.crypto_kem_enc (leak90s sha0) P tapeRng (List.replicate P.BYTES_CCA_DEC 0) (List.replicate 32 0) (List.replicate P.PUBLICKEYBYTES 0) (List.replicate 32 0, [])).trace,
    (Leak.Avx.crypto_kem_dec (leak90s sha0) P (List.replicate 32 0) (List.replicate P.BYTES_CCA_DEC 0) (List.replicate P.SECRETKEYBYTES 0)).trace, fun l hl => ⟨?_, ?_, ?_⟩⟩
  · exact fun rb st st1 st2 st3 r1 r2 z h1 h2 h3 pk sk hpk hsk => avx_keypair_trace (ll := leak90s l) (ll' := leak90s sha0) (lib' := avx90s sha0) P (avx90s_ok hl)
      (avx90s_ok sha0_correct) rb tapeRng st st1 st2 st3
      _ _ _ _ r1 r2 z _ _ _ h1 h2 h3 (tapeRng_delivers 32 (List.replicate 96 0) [] (by rw [l96]; decide))
      (tapeRng_delivers 32 _ _ (by rw [List.length_drop, l96]; decide)) (tapeRng_delivers 32 _ _ (by rw [List.length_drop, List.length_drop, l96]))
      pk sk (List.replicate _ 0) (List.replicate _ 0) hpk hsk List.length_replicate List.length_replicate
  · exact fun rb st st1 m h1 c k pk hc hk hpk => avx_enc_trace (ll := leak90s l) (ll' := leak90s sha0) (lib' := avx90s sha0) P (avx90s_ok hl) (avx90s_ok sha0_correct)
      rb tapeRng st st1 _ _ m _ h1
      (tapeRng_delivers 32 (List.replicate 32 0) [] (by rw [List.length_replicate])) c k pk (List.replicate _ 0) (List.replicate _ 0) (List.replicate _ 0)
      hc hk hpk List.length_replicate List.length_replicate List.length_replicate
  · exact fun k c sk hk hc hsk => avx_dec_trace (ll := leak90s l) (ll' := leak90s sha0) (lib' := avx90s sha0) P (avx90s_ok hl) (avx90s_ok sha0_correct)
      k c sk (List.replicate _ 0) (List.replicate _ 0) (List.replicate _ 0)
      hk hc hsk List.length_replicate List.length_replicate List.length_replicate

/-- C71: what the key stream shows depends on the nonce: its branches follow the block counter, which starts at the nonce and is not secret. -/
theorem C71_nonce_is_public (out out' k k' : List Byte) (outOff outlen kOff : Nat) (n : List Byte) (r r')
    (h : Avx.AesNi.crypto_stream_aes256ctr out outOff outlen n k kOff = .ok r) (h' : Avx.AesNi.crypto_stream_aes256ctr out' outOff outlen n k' kOff = .ok r') :
    (Leak.Avx.AesNi.crypto_stream_aes256ctr out outOff outlen n k kOff).trace = (Leak.Avx.AesNi.crypto_stream_aes256ctr out' outOff outlen n k' kOff).trace :=
  ((Leak.Avx.AesNi.CT_crypto_stream_aes256ctr out out' outOff outlen n k k' kOff).same _ _
    ((Leak.Avx.AesNi.E_crypto_stream_aes256ctr out outOff outlen n k kOff).trans h)
    ((Leak.Avx.AesNi.E_crypto_stream_aes256ctr out' outOff outlen n k' kOff).trans h')).1

/-- With another nonce the sequence differs: the record does show the branch. -/
example : (Leak.Avx.AesNi.counters8 (List.replicate 16 0)).trace ≠ (Leak.Avx.AesNi.counters8 (List.replicate 8 0 ++ List.replicate 8 0xff)).trace := by
  decide +kernel

end Saber.Props
