import Verif.Proof.TestKex
import Verif.Props.KatMain
/-!
# C84: the test programs

`testKexN` is `main` of test_kex.c with an arbitrary number of rounds, `kemMain` is `main` of kem.c.
-/
namespace Saber.Props
open Spec Spec.Drbg Spec.KatFile Spec.Exchange

/-- What test_kex does when it is linked with an implementation of the scheme `S`: no undefined behaviour; if all `N` exchanges agree it
prints the summary, otherwise it stops with a message after the first exchange that does not agree.  The exit status is 0 in both cases. -/
def TestBehaviour (E : Cipher) (S : Kem) (N : Nat) (tick : Nat → Fin 6 → BitVec 64) (head tail : List Byte) (trace : Bool)
    (result : CM (Int × List Byte)) : Prop :=
  ((∀ d ∈ exchanges E N, secretA S d = secretB S d) → result = .ok (0, head ++ numberLines trace 0 N ++
    str "Repeat is : " ++ decimal N ++ str "\n" ++
    str "Average times key_pair: \t " ++ decimal (average N (tick · 0) (tick · 1)) ++ str " \n" ++
    str "Average times enc: \t " ++ decimal (average N (tick · 2) (tick · 3)) ++ str " \n" ++
    str "Average times dec: \t " ++ decimal (average N (tick · 4) (tick · 5)) ++ str " \n" ++ tail)) ∧
  (∀ j, (hj : j < (exchanges E N).length) → (∀ d ∈ (exchanges E N).take j, secretA S d = secretB S d) →
    secretA S (exchanges E N)[j] ≠ secretB S (exchanges E N)[j] →
    result = .ok (0, head ++ numberLines trace 0 (j + 1) ++ str "----- ERR CCA KEM ------\n"))

/-- The first lines of the program of the reference implementation, for sizes of the specification. -/
def sizeLines (pk isk sk ct : Nat) : List Byte :=
  str "SABER_INDCPA_PUBLICKEYBYTES=" ++ decimal pk ++ str "\nSABER_INDCPA_SECRETKEYBYTES=" ++ decimal isk ++
    str "\nSABER_PUBLICKEYBYTES=" ++ decimal pk ++ str "\nSABER_SECRETKEYBYTES=" ++ decimal sk ++
    str "\nSABER_KEYBYTES=32\nSABER_HASHBYTES=32\nSABER_BYTES_CCA_DEC=" ++ decimal ct ++ str "\n\n"

/-- The last lines of the program of the reference implementation: times that are not measured. -/
def zeroLines : List Byte := str "Average times kp mv: \t 0 \nAverage times cl mv: \t 0 \nAverage times sample_kp: \t 0 \n"

theorem testHead_eq (pk isk sk ct : Nat) : testHead pk isk pk sk ct = sizeLines pk isk sk ct := by
  unfold testHead sizeLines
  have h : ∀ a b : String, str a ++ str b = str (a ++ b) := by intro a b; simp [str]
  simp only [printNat_eq, List.append_assoc]
  have e1 : ∀ (s : String) (l : List Byte), str "\n" ++ (str s ++ l) = str ("\n" ++ s) ++ l := by
    intro s l; rw [← List.append_assoc, h]
  have e2 : decimal 32 = str "32" := by decide +kernel
  rw [e1, e1, e1, e1, e2, ← List.append_assoc (str "32"), ← List.append_assoc (str "32")]
  congr 1

theorem testTail_eq : testTail = zeroLines := by decide +kernel

/-- C84, reference implementation (10000 rounds in the code). -/
theorem C84_reference {E : Cipher} (hE : IsCipher E) (P : PSet) (N : Nat) (hN0 : 0 < N) (hN : N < 2 ^ 29) (tick : Nat → Fin 6 → BitVec 64) (ctx : DRBG)
    (hk : ctx.Key.length = 32) (hv : ctx.V.length = 16) :
    TestBehaviour E (saberKem P) N tick
      (sizeLines (P.L * 320 + 32) (P.L * 416) (P.L * 416 + P.L * 320 + 96) (P.L * 320 + P.ET * 32)) zeroLines false
      (testKexN E (refTest P E) N tick ctx) := by
  have := testKexN_ok hE (refTest P E) (refApi_implements P E) rfl rfl rfl N hN0 hN tick ctx ⟨hk, hv⟩
  have h1 : (refTest P E).head = sizeLines (P.L * 320 + 32) (P.L * 416) (P.L * 416 + P.L * 320 + 96) (P.L * 320 + P.ET * 32) := by
    unfold refTest
    rw [← testHead_eq]
    cases P <;> rfl
  have h2 : (refTest P E).tail = zeroLines := testTail_eq
  rw [h1, h2] at this
  exact this

/-- C84, all builds of `Variants/uSaber-90s/ref` (1000000 rounds in the code). -/
theorem C84_variants {E : Cipher} (hE : IsCipher E) (f : U.Cfg) (N : Nat) (hN0 : 0 < N) (hN : N < 2 ^ 29) (tick : Nat → Fin 6 → BitVec 64) (ctx : DRBG)
    (hk : ctx.Key.length = 32) (hv : ctx.V.length = 16) :
    TestBehaviour E (variantKem f f.ALGNAME) N tick
      (sizeLines (f.P.L * 320 + 32) (f.P.L * (32 * f.EQ)) (f.P.L * (32 * f.EQ) + f.P.L * 320 + 96) (f.P.L * 320 + f.P.ET * 32)) zeroLines false
      (testKexN E (uTest f E) N tick ctx) := by
  have := testKexN_ok hE (uTest f E) (uApi_implements f E) rfl rfl rfl N hN0 hN tick ctx ⟨hk, hv⟩
  have h1 : (uTest f E).head =
      sizeLines (f.P.L * 320 + 32) (f.P.L * (32 * f.EQ)) (f.P.L * (32 * f.EQ) + f.P.L * 320 + 96) (f.P.L * 320 + f.P.ET * 32) := by
    unfold uTest
    rw [← testHead_eq]
    obtain ⟨P, u, s⟩ := f
    cases P <;> cases u <;> cases s <;> rfl
  have h2 : (uTest f E).tail = zeroLines := testTail_eq
  rw [h1, h2] at this
  exact this

/-- C84, `AVX_Implementation_KEM` (100000 rounds in the code): a line per round. -/
theorem C84_avx {E : Cipher} (hE : IsCipher E) (P : PSet) (N : Nat) (hN0 : 0 < N) (hN : N < 2 ^ 29) (tick : Nat → Fin 6 → BitVec 64) (ctx : DRBG)
    (hk : ctx.Key.length = 32) (hv : ctx.V.length = 16) (tail : List Byte) :
    TestBehaviour E (saberKem P) N tick [] tail true (testKexN E (avxTest Avx.fips202 P E true tail) N tick ctx) :=
  testKexN_ok hE (avxTest Avx.fips202 P E true tail) (avxApi_implements P E) (avxSizes_eq P).1.symm (avxSizes_eq P).2.1.symm
    (avxSizes_eq P).2.2.symm N hN0 hN tick ctx ⟨hk, hv⟩

/-- C84, `Variants/uSaber-90s/avx2` (1000000 rounds in the code). -/
theorem C84_avx_90s {E : Cipher} (hE : IsCipher E) {l : ShaLib} (hl : l.Correct) (P : PSet) (N : Nat) (hN0 : 0 < N) (hN : N < 2 ^ 29)
    (tick : Nat → Fin 6 → BitVec 64) (ctx : DRBG) (hk : ctx.Key.length = 32) (hv : ctx.V.length = 16) (tail : List Byte) :
    TestBehaviour E (variantKem ⟨P, false, true⟩ P.ALGNAME) N tick [] tail false (testKexN E (avxTest (avx90s l) P E false tail) N tick ctx) :=
  testKexN_ok hE (avxTest (avx90s l) P E false tail) (avx90sApi_implements hl P E) (avxSizes_eq P).1.symm (avxSizes_eq P).2.1.symm
    (avxSizes_eq P).2.2.symm N hN0 hN tick ctx ⟨hk, hv⟩

/-- The exit status does not tell whether the test has passed. -/
theorem C84_exit_status {E : Cipher} {S : Kem} {N : Nat} {tick : Nat → Fin 6 → BitVec 64} {head tail : List Byte} {trace : Bool}
    {result : CM (Int × List Byte)} (h : TestBehaviour E S N tick head tail trace result) : ∃ out, result = .ok (0, out) := by
  by_cases hall : ∀ d ∈ exchanges E N, secretA S d = secretB S d
  · exact ⟨_, h.1 hall⟩
  · obtain ⟨j, hj, h1, h2⟩ := first_failure hall
    exact ⟨_, h.2 j hj h1 h2⟩

/-- The program is deterministic up to the times: what it does is determined by the description, so two runs with the same clock
readings print the same, whatever the state of the generator before, and so do two implementations of the same scheme. -/
theorem C84_deterministic {E : Cipher} {S : Kem} {N : Nat} {tick : Nat → Fin 6 → BitVec 64} {head tail : List Byte} {trace : Bool}
    {r r' : CM (Int × List Byte)} (h : TestBehaviour E S N tick head tail trace r) (h' : TestBehaviour E S N tick head tail trace r') : r = r' := by
  by_cases hall : ∀ d ∈ exchanges E N, secretA S d = secretB S d
  · rw [h.1 hall, h'.1 hall]
  · obtain ⟨j, hj, h1, h2⟩ := first_failure hall
    rw [h.2 j hj h1 h2, h'.2 j hj h1 h2]

/-- The last line of the output tells whether the test has passed (if the lines after the average times do not end with the message). -/
theorem C84_verdict {E : Cipher} {S : Kem} {N : Nat} {tick : Nat → Fin 6 → BitVec 64} {head tail : List Byte} {trace : Bool}
    {out : List Byte} {rc : Int} (htail : str " \n" <:+ tail) (h : TestBehaviour E S N tick head tail trace (.ok (rc, out))) :
    str "----- ERR CCA KEM ------\n" <:+ out ↔ ∃ d ∈ exchanges E N, secretA S d ≠ secretB S d := by
  by_cases hall : ∀ d ∈ exchanges E N, secretA S d = secretB S d
  · have hout := (Prod.mk.inj (Except.ok.inj (h.1 hall))).2
    refine ⟨fun hs => ?_, fun ⟨d, hd, hne⟩ => absurd (hall d hd) hne⟩
    have h1 : str " \n" <:+ out := by rw [hout]; exact htail.trans (List.suffix_append _ _)
    have h2 : str "-\n" <:+ out := List.IsSuffix.trans (by decide +kernel) hs
    have h3 := List.suffix_of_suffix_length_le h1 h2 (by decide)
    exact absurd (h3.eq_of_length (by decide)) (by decide)
  · obtain ⟨j, hj, h1, h2⟩ := first_failure hall
    have hout := (Prod.mk.inj (Except.ok.inj (h.2 j hj h1 h2))).2
    exact ⟨fun _ => ⟨_, List.getElem_mem hj, h2⟩, fun _ => by rw [hout]; exact List.suffix_append _ _⟩

/-- What kem.c does with an implementation of the scheme `S`: it prints the bytes of the two shared secrets side by side up to the first
difference, and after a difference a message; the exit status is 0. -/
def KemTestBehaviour (E : Cipher) (S : Kem) (result : CM (Int × List Byte)) : Prop :=
  ∃ d ∈ exchanges E 1, result = .ok (0,
    (((secretA S d).zip (secretB S d)).take (firstDifference (secretA S d) (secretB S d) + 1)).flatMap pairLine ++
      if secretA S d = secretB S d then [] else str " ----- ERR CCA KEM ------\n")

/-- C84, kem.c of the reference implementation. -/
theorem C84_kem_reference {E : Cipher} (hE : IsCipher E) (P : PSet) (ctx : DRBG) (hk : ctx.Key.length = 32) (hv : ctx.V.length = 16) :
    KemTestBehaviour E (saberKem P) (kemMain E (refApi P E) ctx) :=
  kemMain_ok hE (refApi_implements P E) ctx ⟨hk, hv⟩

/-- C84, kem.c of `Variants/uSaber-90s/ref`. -/
theorem C84_kem_variants {E : Cipher} (hE : IsCipher E) (f : U.Cfg) (ctx : DRBG) (hk : ctx.Key.length = 32) (hv : ctx.V.length = 16) :
    KemTestBehaviour E (variantKem f f.ALGNAME) (kemMain E (uApi f E) ctx) :=
  kemMain_ok hE (uApi_implements f E) ctx ⟨hk, hv⟩

/-! ### The hypotheses are met -/

/-- An instance with the toy cipher and 10000 rounds. -/
example : TestBehaviour toyCipher (saberKem .saber) 10000 (fun i k => BitVec.ofNat 64 (6 * i + k)) (sizeLines 992 1248 2304 1088) zeroLines false
    (testKexN toyCipher (refTest .saber toyCipher) 10000 (fun i k => BitVec.ofNat 64 (6 * i + k)) zeroCtx) :=
  C84_reference toyCipher_ok .saber 10000 (by decide) (by decide) _ zeroCtx rfl rfl

/-- With this clock the average time is 1. -/
example : average 5 (fun i => BitVec.ofNat 64 (6 * i)) (fun i => BitVec.ofNat 64 (6 * i + 1)) = 1 := by decide +kernel

/-- Lines of the two programs. -/
example : numberLines true 0 3 = str "i : 0\ni : 1\ni : 2\n" ∧ pairLine (200, 7) = str "200 \t 7\n" ∧
    firstDifference [1, 2, 3] [1, 2, 4] = 2 := by decide +kernel

/-- The last lines meet the condition of `C84_verdict`. -/
example : str " \n" <:+ zeroLines := by decide +kernel

end Saber.Props
