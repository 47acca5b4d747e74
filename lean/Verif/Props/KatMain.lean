import Verif.Proof.KatMain
import Verif.Props.Rng
import Verif.Props.Kem
import Verif.Props.USaber
import Verif.Props.Avx
/-!
# C74: the program of the known-answer tests

`katMain` is `main` of PQCgenKAT_kem.c; `Spec/KatFile.lean` says what the two files are.  The number of entries, 100 in the code, is
arbitrary here.
-/
namespace Saber.Props
open Spec Spec.Drbg Spec.KatFile

/-- The scheme of the reference implementation. -/
def saberKem (P : PSet) : Kem :=
  ⟨P.ALGNAME, kemPk (params P), kemSk (params P), encapsC (params P), encapsK (params P), decaps (params P)⟩

/-- A variant of the scheme under some name. -/
def variantKem (f : U.Cfg) (name : String) : Kem :=
  ⟨name, USpec.kemPk (variant f), USpec.kemSk (variant f), USpec.encapsC (variant f), USpec.encapsK (variant f), USpec.decaps (variant f)⟩

theorem length_variantK (f : U.Cfg) (m0 pk : List Byte) : (USpec.encapsK (variant f) m0 pk).length = 32 := by
  rw [variant_eq]
  exact U.length_H f _

theorem length_variantDec (f : U.Cfg) (sk c : List Byte) : (USpec.decaps (variant f) sk c).length = 32 := by
  rw [variant_eq]
  unfold USpec.decaps
  split <;> exact U.length_H f _

theorem uApi_implements (f : U.Cfg) (E : Cipher) : Implements (uApi f E) (variantKem f f.ALGNAME) E where
  name := rfl
  pos := by obtain ⟨P, u, s90⟩ := f; cases P <;> cases u <;> cases s90 <;> exact ⟨Nat.zero_lt_succ _, Nat.zero_lt_succ _, Nat.zero_lt_succ _⟩
  keypair st st1 st2 st3 r1 r2 z h1 h2 h3 pk sk hpk hsk := C35_keypair_spec f (randombytes E) st st1 st2 st3 r1 r2 z h1 h2 h3 pk sk hpk hsk
  lenPk r1 r2 h := length_variantPk f r1 r2 h
  lenSk r1 r2 z h hz := length_variantSk f r1 r2 z h hz
  enc st st1 m h c k pk hc hk hpk := C35_enc_spec f (randombytes E) st st1 m h c k pk hc hk hpk
  lenCt m pk := length_variantC f m pk
  lenSs m pk := length_variantK f m pk
  dec k c sk hk hc hsk := C35_dec_spec f k c sk hk hc hsk
  lenDec sk c := length_variantDec f sk c

theorem saberKem_eq (P : PSet) : saberKem P = variantKem ⟨P, false, false⟩ P.ALGNAME := by
  unfold saberKem variantKem
  congr 1

theorem refApi_implements (P : PSet) (E : Cipher) : Implements (refApi P E) (saberKem P) E where
  name := rfl
  pos := by cases P <;> exact ⟨Nat.zero_lt_succ _, Nat.zero_lt_succ _, Nat.zero_lt_succ _⟩
  keypair st st1 st2 st3 r1 r2 z h1 h2 h3 pk sk hpk hsk := C01_keypair_spec P (randombytes E) st st1 st2 st3 r1 r2 z h1 h2 h3 pk sk hpk hsk
  lenPk r1 r2 h := by rw [saberKem_eq]; exact (length_variantPk _ r1 r2 h).trans (plain_sizes P false).1
  lenSk r1 r2 z h hz := by rw [saberKem_eq]; exact (length_variantSk _ r1 r2 z h hz).trans (plain_sizes P false).2.1
  enc st st1 m h c k pk hc hk hpk := C02_enc_spec P (randombytes E) st st1 m h c k pk hc hk hpk
  lenCt m pk := by rw [saberKem_eq]; exact (length_variantC _ m pk).trans (plain_sizes P false).2.2
  lenSs m pk := by rw [saberKem_eq]; exact length_variantK ⟨P, false, false⟩ m pk
  dec k c sk hk hc hsk := C03_dec_spec P k c sk hk hc hsk
  lenDec sk c := by rw [saberKem_eq]; exact length_variantDec ⟨P, false, false⟩ sk c

theorem avxSizes_eq (P : PSet) : (avxSizes P).1 = P.PUBLICKEYBYTES ∧ (avxSizes P).2.1 = P.SECRETKEYBYTES ∧ (avxSizes P).2.2 = P.BYTES_CCA_DEC := by
  cases P <;> exact ⟨rfl, rfl, rfl⟩

theorem avxApi_implements (P : PSet) (E : Cipher) : Implements (avxApi Avx.fips202 P E) (saberKem P) E where
  name := rfl
  pos := by cases P <;> exact ⟨Nat.zero_lt_succ _, Nat.zero_lt_succ _, Nat.zero_lt_succ _⟩
  keypair st st1 st2 st3 r1 r2 z h1 h2 h3 pk sk hpk hsk := C55_keypair_spec P (randombytes E) st st1 st2 st3 r1 r2 z h1 h2 h3 pk sk
    (hpk.trans (avxSizes_eq P).1) (hsk.trans (avxSizes_eq P).2.1)
  lenPk r1 r2 h := ((refApi_implements P E).lenPk r1 r2 h).trans (avxSizes_eq P).1.symm
  lenSk r1 r2 z h hz := ((refApi_implements P E).lenSk r1 r2 z h hz).trans (avxSizes_eq P).2.1.symm
  enc st st1 m h c k pk hc hk hpk := C55_enc_spec P (randombytes E) st st1 m h c k pk (hc.trans (avxSizes_eq P).2.2) hk (hpk.trans (avxSizes_eq P).1)
  lenCt m pk := ((refApi_implements P E).lenCt m pk).trans (avxSizes_eq P).2.2.symm
  lenSs m pk := (refApi_implements P E).lenSs m pk
  dec k c sk hk hc hsk := C55_dec_spec P k c sk hk (hc.trans (avxSizes_eq P).2.2) (hsk.trans (avxSizes_eq P).2.1)
  lenDec sk c := (refApi_implements P E).lenDec sk c

theorem avx90sApi_implements {l : ShaLib} (hl : l.Correct) (P : PSet) (E : Cipher) :
    Implements (avxApi (avx90s l) P E) (variantKem ⟨P, false, true⟩ P.ALGNAME) E where
  name := rfl
  pos := by cases P <;> exact ⟨Nat.zero_lt_succ _, Nat.zero_lt_succ _, Nat.zero_lt_succ _⟩
  keypair st st1 st2 st3 r1 r2 z h1 h2 h3 pk sk hpk hsk := C57_keypair_spec hl P (randombytes E) st st1 st2 st3 r1 r2 z h1 h2 h3 pk sk
    (hpk.trans (avxSizes_eq P).1) (hsk.trans (avxSizes_eq P).2.1)
  lenPk r1 r2 h := ((length_variantPk _ r1 r2 h).trans (plain_sizes P true).1).trans (avxSizes_eq P).1.symm
  lenSk r1 r2 z h hz := ((length_variantSk _ r1 r2 z h hz).trans (plain_sizes P true).2.1).trans (avxSizes_eq P).2.1.symm
  enc st st1 m h c k pk hc hk hpk := C57_enc_spec hl P (randombytes E) st st1 m h c k pk (hc.trans (avxSizes_eq P).2.2) hk (hpk.trans (avxSizes_eq P).1)
  lenCt m pk := ((length_variantC _ m pk).trans (plain_sizes P true).2.2).trans (avxSizes_eq P).2.2.symm
  lenSs m pk := length_variantK ⟨P, false, true⟩ m pk
  dec k c sk hk hc hsk := C57_dec_spec hl P k c sk hk (hc.trans (avxSizes_eq P).2.2) (hsk.trans (avxSizes_eq P).2.1)
  lenDec sk c := length_variantDec ⟨P, false, true⟩ sk c

/-- What the program does when it is linked with an implementation of the scheme `S`: it has no undefined behaviour and writes the request
file of the specification.  If the two shared secrets of every entry agree, it returns 0 and the response file is complete; otherwise it
returns -4 after the first entry with different secrets, which is the last in the file. -/
def KatBehaviour (E : Cipher) (S : Kem) (N : Nat) (result : CM (Int × List Byte × List Byte)) : Prop :=
  ∃ rc rsp, result = .ok (rc, requestFile E N, rsp) ∧
    ((∀ x ∈ seeds E N, agrees S E x) → rc = 0 ∧ rsp = responseFile S E N) ∧
    (∀ j, (hj : j < (seeds E N).length) → (∀ x ∈ (seeds E N).take j, agrees S E x) → ¬ agrees S E (seeds E N)[j] →
      rc = -4 ∧ rsp = responseFile S E (j + 1))

/-- C74, for the program with `N` instead of 100 entries, in the reference implementation. -/
theorem C74_reference {E : Cipher} (hE : IsCipher E) (P : PSet) (N : Nat) (hN : N ≤ 2 ^ 31 - 2) (ctx : DRBG) (hk : ctx.Key.length = 32)
    (hv : ctx.V.length = 16) : KatBehaviour E (saberKem P) N (katMainN E (refApi P E) N ctx) :=
  katMainN_ok hE (refApi_implements P E) N (by omega) ctx ⟨hk, hv⟩

/-- C74, for all builds of `Variants/uSaber-90s/ref`. -/
theorem C74_variants {E : Cipher} (hE : IsCipher E) (f : U.Cfg) (N : Nat) (hN : N ≤ 2 ^ 31 - 2) (ctx : DRBG) (hk : ctx.Key.length = 32)
    (hv : ctx.V.length = 16) : KatBehaviour E (variantKem f f.ALGNAME) N (katMainN E (uApi f E) N ctx) :=
  katMainN_ok hE (uApi_implements f E) N (by omega) ctx ⟨hk, hv⟩

/-- C74, for `AVX_Implementation_KEM`. -/
theorem C74_avx {E : Cipher} (hE : IsCipher E) (P : PSet) (N : Nat) (hN : N ≤ 2 ^ 31 - 2) (ctx : DRBG) (hk : ctx.Key.length = 32)
    (hv : ctx.V.length = 16) : KatBehaviour E (saberKem P) N (katMainN E (avxApi Avx.fips202 P E) N ctx) :=
  katMainN_ok hE (avxApi_implements P E) N (by omega) ctx ⟨hk, hv⟩

/-- C74, for `Variants/uSaber-90s/avx2`: the scheme is Saber-90s, but the header says Saber. -/
theorem C74_avx_90s {E : Cipher} (hE : IsCipher E) {l : ShaLib} (hl : l.Correct) (P : PSet) (N : Nat) (hN : N ≤ 2 ^ 31 - 2) (ctx : DRBG)
    (hk : ctx.Key.length = 32) (hv : ctx.V.length = 16) :
    KatBehaviour E (variantKem ⟨P, false, true⟩ P.ALGNAME) N (katMainN E (avxApi (avx90s l) P E) N ctx) :=
  katMainN_ok hE (avx90sApi_implements hl P E) N (by omega) ctx ⟨hk, hv⟩

/-- If not all elements of a list have a property, there is a first one without it. -/
theorem first_failure {α} {p : α → Prop} {l : List α} (h : ¬ ∀ x ∈ l, p x) :
    ∃ j, ∃ hj : j < l.length, (∀ x ∈ l.take j, p x) ∧ ¬ p l[j] := by
  induction l with
  | nil => simp at h
  | cons a t ih =>
    by_cases ha : p a
    · have : ¬ ∀ x ∈ t, p x := fun ht => h (by simpa [ha] using ht)
      obtain ⟨j, hj, h1, h2⟩ := ih this
      refine ⟨j + 1, by simpa using hj, ?_, by simpa using h2⟩
      intro x hx
      rw [List.take_succ_cons, List.mem_cons] at hx
      rcases hx with rfl | hx
      · exact ha
      · exact h1 x hx
    · exact ⟨0, by simp, by simp, by simpa using ha⟩

/-- The two cases of the behaviour leave nothing out, so the result is determined. -/
theorem KatBehaviour_unique {E : Cipher} {S : Kem} {N : Nat} {r r' : CM (Int × List Byte × List Byte)} (h : KatBehaviour E S N r)
    (h' : KatBehaviour E S N r') : r = r' := by
  obtain ⟨rc, rsp, rfl, h1, h2⟩ := h
  obtain ⟨rc', rsp', rfl, h1', h2'⟩ := h'
  by_cases hall : ∀ x ∈ seeds E N, agrees S E x
  · obtain ⟨rfl, rfl⟩ := h1 hall
    obtain ⟨rfl, rfl⟩ := h1' hall
    rfl
  · obtain ⟨j, hj, hb, hf⟩ := first_failure hall
    obtain ⟨rfl, rfl⟩ := h2 _ hj hb hf
    obtain ⟨rfl, rfl⟩ := h2' _ hj hb hf
    rfl

/-- C74: the value of the program is 0 if and only if all exchanges agree, and -4 otherwise; it is never -1 or -3. -/
theorem C74_return_value {E : Cipher} (hE : IsCipher E) (P : PSet) (ctx : DRBG) (hk : ctx.Key.length = 32) (hv : ctx.V.length = 16) :
    ∃ rc req rsp, katMain E (refApi P E) ctx = .ok (rc, req, rsp) ∧ (rc = 0 ∨ rc = -4) ∧
      (rc = 0 ↔ ∀ x ∈ seeds E 100, agrees (saberKem P) E x) := by
  obtain ⟨rc, rsp, h, h1, h2⟩ := C74_reference hE P 100 (by decide) ctx hk hv
  refine ⟨rc, _, rsp, h, ?_⟩
  by_cases hall : ∀ x ∈ seeds E 100, agrees (saberKem P) E x
  · have := (h1 hall).1
    exact ⟨Or.inl this, fun _ => hall, fun _ => this⟩
  · obtain ⟨j, hj, hb, hf⟩ := first_failure hall
    have := (h2 _ hj hb hf).1
    exact ⟨Or.inr this, fun h0 => by omega, fun h0 => absurd h0 hall⟩

/-- C74: the reference implementation, the AVX2 implementation and the build of the variants without `uSaber` and `Saber90s` return the same
value and write identical files. -/
theorem C74_same_files {E : Cipher} (hE : IsCipher E) (P : PSet) (ctx : DRBG) (hk : ctx.Key.length = 32) (hv : ctx.V.length = 16) :
    katMain E (avxApi Avx.fips202 P E) ctx = katMain E (refApi P E) ctx ∧
    katMain E (uApi ⟨P, false, false⟩ E) ctx = katMain E (refApi P E) ctx := by
  refine ⟨KatBehaviour_unique (C74_avx hE P 100 (by decide) ctx hk hv) (C74_reference hE P 100 (by decide) ctx hk hv),
    KatBehaviour_unique (S := saberKem P) ?_ (C74_reference hE P 100 (by decide) ctx hk hv)⟩
  have := C74_variants hE ⟨P, false, false⟩ 100 (by decide) ctx hk hv
  rw [saberKem_eq]
  rwa [show U.Cfg.ALGNAME ⟨P, false, false⟩ = P.ALGNAME by cases P <;> decide] at this

/-- The response file starts with the header. -/
theorem KatBehaviour_header {E : Cipher} {S : Kem} {N : Nat} {r : CM (Int × List Byte × List Byte)} (h : KatBehaviour E S N r) :
    ∃ rc req rsp, r = .ok (rc, req, rsp) ∧ header S <+: rsp := by
  obtain ⟨rc, rsp, rfl, h1, h2⟩ := h
  refine ⟨rc, _, rsp, rfl, ?_⟩
  by_cases hall : ∀ x ∈ seeds E N, agrees S E x
  · rw [(h1 hall).2]; exact List.prefix_append _ _
  · obtain ⟨j, hj, hb, hf⟩ := first_failure hall
    rw [(h2 _ hj hb hf).2]
    exact List.prefix_append _ _

/-- C74: the two directories of the 90s variant never write identical response files: the header of the AVX2 version lacks the suffix `-90s`. -/
theorem C74_90s_files_differ {E : Cipher} (hE : IsCipher E) {l : ShaLib} (hl : l.Correct) (P : PSet) (ctx : DRBG) (hk : ctx.Key.length = 32)
    (hv : ctx.V.length = 16) : ∃ rc req rsp rc' req' rsp', katMain E (avxApi (avx90s l) P E) ctx = .ok (rc, req, rsp) ∧
      katMain E (uApi ⟨P, false, true⟩ E) ctx = .ok (rc', req', rsp') ∧ rsp ≠ rsp' := by
  obtain ⟨rc, req, rsp, h, hp⟩ := KatBehaviour_header (C74_avx_90s hE hl P 100 (by decide) ctx hk hv)
  obtain ⟨rc', req', rsp', h', hp'⟩ := KatBehaviour_header (C74_variants hE ⟨P, false, true⟩ 100 (by decide) ctx hk hv)
  refine ⟨rc, req, rsp, rc', req', rsp', h, h', ?_⟩
  rintro rfl
  obtain ⟨t, ht⟩ := hp
  obtain ⟨t', ht'⟩ := hp'
  have e := congrArg (fun x : List Byte => x.take (header (variantKem ⟨P, false, true⟩ P.ALGNAME)).length) (ht.trans ht'.symm)
  rw [List.take_left, List.take_append_of_le_length (by cases P <;> decide)] at e
  revert e
  cases P <;> decide

/-! ### The hypotheses are met -/

/-- The generator before the program starts. -/
def zeroCtx : DRBG := ⟨List.replicate 32 0, List.replicate 16 0, 0⟩

/-- An instance: the program of the reference implementation with the toy cipher. -/
example : KatBehaviour toyCipher (saberKem .saber) 100 (katMain toyCipher (refApi .saber toyCipher) zeroCtx) :=
  C74_reference toyCipher_ok .saber 100 (by decide) zeroCtx rfl rfl

/-- The text of numbers and of an entry of the request file. -/
example : decimal 0 = str "0" ∧ decimal 42 = str "42" ∧ decimal 100 = str "100" := by decide +kernel

example : request 7 [0xAB, 0x01] = str "count = 7\nseed = AB01\npk =\nsk =\nct =\nss =\n\n" := by decide +kernel

example : header (saberKem .fire) = str "# FireSaber\n\n" := by decide +kernel

end Saber.Props
