import Verif.Proof.IdealFailure
/-!
# Properties of the distribution of the secrets and of the failure probability: C63 to C65

`Spec/Fraction.lean` defines `count` and `fraction`, `Spec/Failure.lean` what it means that an exchange fails.  The theorems are about
byte strings that are uniformly distributed; that the output of SHAKE-128 behaves like such a string is not part of the model.
-/
namespace Saber.Props
open Spec Saber.Law Saber.Prob

/-- Number of bit patterns of the centred binomial distribution with parameter `mu` that have the value `v`. -/
def binomialWeight (mu : Nat) (v : Int) : Nat :=
  if -(mu / 2 : Int) ≤ v ∧ v ≤ (mu / 2 : Int) then Nat.choose mu ((mu / 2 : Int) + v).toNat else 0

theorem count_patternValue (P : PSet) (v : Int) : count (fun b : Fin (2 ^ muOf P) => patternValue (muOf P) b.val = v) = binomialWeight (muOf P) v := by
  rw [count_fin _ fun w => patternValue (muOf P) w = v]
  exact C20_distribution P v

/-- C63: on uniformly distributed bytes the 256 coefficients that the sampler writes are independent, and each of them has the centred
binomial distribution: the number of byte strings for which the sampler writes the coefficients `t` is the product of the weights. -/
theorem C63_joint_law (P : PSet) (s : List (BitVec 16)) (hs : s.length = 256) (t : Fin 256 → Int) :
    count (fun b : Bytes (32 * muOf P) => ∃ r, cbd P s (List.ofFn b) 0 = .ok r ∧ ∀ i : Fin 256, (r.getD i.val 0).toInt = t i)
      = ∏ i, binomialWeight (muOf P) (t i) := by
  have e : count (fun b : Bytes (32 * muOf P) => ∃ r, cbd P s (List.ofFn b) 0 = .ok r ∧ ∀ i : Fin 256, (r.getD i.val 0).toInt = t i)
      = count (fun w : Fin 256 → Fin (2 ^ muOf P) => ∀ i, patternValue (muOf P) (w i).val = t i) := by
    refine Eq.trans (congrArg count (funext fun b => ?_)) (count_equiv (polyEquiv (muOf P))
      fun w : Fin 256 → Fin (2 ^ muOf P) => ∀ i, patternValue (muOf P) (w i).val = t i)
    obtain ⟨r, h1, h2, h3⟩ := C20_cbd P s (List.ofFn b) 0 hs (by simp)
    refine propext ⟨fun ⟨r', e1, e2⟩ i => ?_, fun h => ⟨r, h1, fun i => ?_⟩⟩
    · rw [h1, Except.ok.injEq] at e1
      subst e1
      rw [← e2 i, (h3 i.val i.isLt).1]
      simp [polyEquiv]
    · rw [← h i, (h3 i.val i.isLt).1]
      simp [polyEquiv]
  rw [e, count_pi (fun i (b : Fin (2 ^ muOf P)) => patternValue (muOf P) b.val = t i)]
  exact Finset.prod_congr rfl fun i _ => count_patternValue P (t i)

/-- C63: the same for the secret vector: its `256 l` coefficients are independent. -/
theorem C63_secret_law (P : PSet) (t : PVec (params P).l) :
    count (fun b : Bytes (params P).secretBytes => secretFrom (params P) (List.ofFn b) = t) = ∏ i, ∏ k, binomialWeight (muOf P) (t i k) := by
  have e : count (fun b : Bytes (params P).secretBytes => secretFrom (params P) (List.ofFn b) = t)
      = count (fun w : Pat P => ∀ i, ∀ k, patternValue (muOf P) (w i k).val = t i k) := by
    refine Eq.trans (congrArg count (funext fun b => ?_)) (count_equiv (secretEquiv P)
      fun w : Pat P => ∀ i, ∀ k, patternValue (muOf P) (w i k).val = t i k)
    rw [secretFrom_pat]
    exact propext ⟨fun h i k => by rw [← h]; rfl, fun h => funext fun i => funext fun k => h i k⟩
  rw [e, count_pi (fun i (v : Fin 256 → Fin (2 ^ muOf P)) => ∀ k, patternValue (muOf P) (v k).val = t i k)]
  refine Finset.prod_congr rfl fun i _ => ?_
  rw [count_pi (fun k (b : Fin (2 ^ muOf P)) => patternValue (muOf P) b.val = t i k)]
  exact Finset.prod_congr rfl fun k _ => count_patternValue P (t i k)

/-- C63: the secret that key generation and encryption use is `secretFrom` of the expansion of the seed. -/
theorem C63_GenSecret (P : PSet) (s : List (List (BitVec 16))) (hv : IsVec P.L s) (seed : List Byte) (hs : seed.length = 32) :
    ∃ s', GenSecret P s seed 0 = .ok s' ∧ ∀ (i : Fin (params P).l) (k : Fin 256),
      ((s'.getD i.val []).getD k.val 0).toInt = secretFrom (params P) (Keccak.shake128 seed (params P).secretBytes) i k := by
  obtain ⟨s', h1, _, h3⟩ := C22_GenSecret P s hv seed hs
  refine ⟨s', h1, fun i k => ?_⟩
  have hl : (params P).l = P.L := by cases P <;> rfl
  have hn : (params P).secretBytes = P.L * muOf P * 32 := by cases P <;> rfl
  rw [h3 ⟨i.val, hl ▸ i.isLt⟩ k.val k.isLt]
  unfold secretFrom
  rw [centredBinomial_pattern _ (mu_even P), mu_params, hn]
  congr 2
  funext b
  rw [bitAt_drop]
  congr 1
  ring

/-- C63: on uniformly distributed bytes the coefficients of a row of the matrix are independent and uniformly distributed modulo `2^13`:
every row comes from exactly one byte string. -/
theorem C63_matrix_law (P : PSet) (data : List (List (BitVec 16))) (hd : IsVec P.L data) (t : Fin P.L → Fin 256 → Fin 8192) :
    count (fun b : Bytes (P.L * 13 * 32) => ∃ v, BS2POLVECq P (List.ofFn b) 0 data = .ok v ∧ ∀ i k, toV P.L v i k = ((t i k).val : Int)) = 1 := by
  have e : count (fun b : Bytes (P.L * 13 * 32) => ∃ v, BS2POLVECq P (List.ofFn b) 0 data = .ok v ∧ ∀ i k, toV P.L v i k = ((t i k).val : Int))
      = count (fun w : Fin P.L → Fin 256 → Fin (2 ^ 13) => w = t) := by
    refine Eq.trans (congrArg count (funext fun b => ?_)) (count_equiv (vecEquiv P.L 13) fun w : Fin P.L → Fin 256 → Fin (2 ^ 13) => w = t)
    rw [BS2POLVECq_ok P (List.ofFn b) 0 data hd (by simp; omega)]
    have hv : ∀ i k, toV P.L (ofV (unpackVec 13 P.L ((List.ofFn b).drop 0))) i k = ((vecEquiv P.L 13 b i k).val : Int) := by
      intro i k
      rw [toV_ofV, toP_ofP, List.drop_zero]
      have := (vecEquiv P.L 13 b i k).isLt
      show ((vecEquiv P.L 13 b i k).val : Int) % 65536 = _
      omega
    refine propext ⟨fun ⟨v, e1, e2⟩ => ?_, fun h => ⟨_, rfl, fun i k => by rw [hv, h]⟩⟩
    rw [Except.ok.injEq] at e1
    subst e1
    funext i k
    apply Fin.ext
    have := e2 i k
    rw [hv] at this
    exact Int.natCast_inj.1 this
  rw [e, count_eq, Finset.filter_eq', if_pos (Finset.mem_univ _), Finset.card_singleton]

/-- The weights of the three builds are those of the centred binomial distribution: 70/256 for 0 and 1/256 for 4 with Saber. -/
example : binomialWeight (muOf .saber) 0 = 70 ∧ binomialWeight (muOf .saber) (-4) = 1 ∧ binomialWeight (muOf .saber) 5 = 0
    ∧ binomialWeight (muOf .light) 5 = 1 ∧ binomialWeight (muOf .fire) 1 = 15 := by decide

/-- The exponents of the bounds for the exchange of the code. -/
def lossBits : PSet → Nat
  | .light => 10
  | .saber => 13
  | .fire => 18

/-- C64: for every matrix, the fraction of the byte strings for the two secrets for which decryption returns a wrong message is at most
2^-10, 2^-13 and 2^-18.  The only assumption is that the bytes are uniformly distributed; the rounding errors are those of the code. -/
theorem C64_failure_bound (P : PSet) (A : PMat (params P).l) :
    fraction (fun d : Bytes (params P).secretBytes × Bytes (params P).secretBytes =>
      ExchangeFails (params P) A (List.ofFn d.1) (List.ofFn d.2)) ≤ 1 / 2 ^ lossBits P := by
  cases P
  · refine le_trans (count_exchange .light A ((27 : Nat) / (26 : Nat)) (by norm_num) 769 (by decide)) ?_
    exact bound_le 27 26 2560 769 _ 10 (by decide) (by decide) (by positivity) (by decide +kernel)
  · refine le_trans (count_exchange .saber A ((28 : Nat) / (27 : Nat)) (by norm_num) 897 (by decide)) ?_
    exact bound_le 28 27 3072 897 _ 13 (by decide) (by decide) (by positivity) (by decide +kernel)
  · refine le_trans (count_exchange .fire A ((25 : Nat) / (24 : Nat)) (by norm_num) 993 (by decide)) ?_
    exact bound_le 25 24 3072 993 _ 18 (by decide) (by decide) (by positivity) (by decide +kernel)

/-- C64: the exchange fails for the bytes that the code expands from its seeds exactly if decryption returns a wrong message. -/
theorem C64_fails_iff {σ : Type} (P : PSet) (rb : RandomBytes σ) (st st1 st2 : σ) (r1 r2 : List Byte)
    (h1 : Delivers rb 32 st r1 st1) (h2 : Delivers rb 32 st1 r2 st2) (pkb skb cb mb : List Byte)
    (hpk : pkb.length = P.INDCPA_PUBLICKEYBYTES) (hsk : skb.length = P.INDCPA_SECRETKEYBYTES) (hc : cb.length = P.BYTES_CCA_DEC)
    (hm : mb.length = 32) (m coins : List Byte) (hml : m.length = 32) (hcl : coins.length = 32) :
    ∃ pk sk c m', indcpa_kem_keypair P rb pkb skb st = .ok (pk, sk, st2) ∧ indcpa_kem_enc P m 0 coins 0 pk 0 cb = .ok c ∧
      indcpa_kem_dec P sk c mb = .ok m' ∧
      (m' ≠ m ↔ ExchangeFails (params P) (genMatrix (params P) (Keccak.shake128 r1 32))
        (Keccak.shake128 r2 (params P).secretBytes) (Keccak.shake128 coins (params P).secretBytes)) := by
  obtain ⟨pk, sk, c, m', e1, e2, e3, _, _, e4⟩ := C06_failure_criterion P rb st st1 st2 r1 r2 h1 h2 pkb skb cb mb hpk hsk hc hm m coins hml hcl
  refine ⟨pk, sk, c, m', e1, e2, e3, ?_⟩
  rw [Ne, e4, not_forall]
  rfl

/-- The hypotheses of `C64_fails_iff` are met by the generator that reads from a tape. -/
example : ∃ st1 st2 : List Byte × List Nat, ∃ r1 r2, Delivers tapeRng 32 ((List.range 64).map n8, []) r1 st1 ∧ Delivers tapeRng 32 st1 r2 st2 ∧
    r2.getD 31 0 = 63 := by
  refine ⟨_, _, _, _, tapeRng_delivers 32 _ _ (by simp), tapeRng_delivers 32 _ _ (by simp), ?_⟩
  decide +kernel

/-- The secret sampled from equal bytes. -/
theorem secret_const (c : Byte) (v : Int) (hv : patternValue 8 (natOfBits 8 fun j => c.getLsbD j) = v) :
    secretFrom Spec.saber (List.ofFn fun _ : Fin Spec.saber.secretBytes => c) = fun _ _ => v := by
  funext i n
  show centredBinomial 8 ((List.ofFn fun _ : Fin 768 => c).drop (i.val * 8 * 32)) n = v
  rw [centredBinomial_pattern 8 rfl, natOfBits_congr (g := fun j => c.getLsbD j)]
  · exact hv
  · intro j hj
    have hi : i.val < 3 := i.isLt
    have hn := n.isLt
    rw [bitAt_drop]
    unfold bitAt
    rw [show (8 * (i.val * 8 * 32) + (8 * n.val + j)) % 8 = j by omega, List.getD_eq_getElem _ _ (by rw [List.length_ofFn]; omega), List.getElem_ofFn]

theorem negMul_constant (c : Int) (b : Poly) : negMul (fun k => if k = 0 then c else 0) b = fun k => c * b k := by
  funext k
  unfold negMul
  rw [Finset.sum_eq_single 0]
  · simp
  · intro i _ hi
    simp [hi]
  · simp

/-- The matrix with the constant 4 in every entry. -/
def fours : PMat 3 := fun _ _ k => if k = 0 then 4 else 0

theorem matVec_fours (v : Int) (i : Fin 3) : matVec fours (fun _ _ => v) i = fun _ => 12 * v := by
  funext k
  unfold matVec fours
  simp only [negMul_constant]
  simp
  ring

theorem noise_fours : ¬ NoiseOk (noise (l := 3) 4 fours (fun _ _ => 4) fun _ _ => 1) 255 := by
  unfold NoiseOk noise
  rw [show transpose fours = fours from rfl]
  simp only [matVec_fours]
  decide +kernel

theorem noise_zeros (k : Fin 256) : NoiseOk (noise (l := 3) 4 fours (fun _ _ => 0) fun _ _ => 0) k := by
  have z : ∀ e : PVec 3, innerProd e (fun _ _ => 0) k = 0 := by
    intro e
    unfold innerProd negMul
    simp
  unfold NoiseOk noise cutErr
  rw [z, z, z]
  decide

/-- The exchange with the matrix `fours` fails for the secrets with all coefficients 4 and 1, and does not fail for the secret 0. -/
example : ExchangeFails Spec.saber fours (List.ofFn fun _ : Fin Spec.saber.secretBytes => (0x0f : Byte))
      (List.ofFn fun _ : Fin Spec.saber.secretBytes => (0x01 : Byte)) ∧
    ¬ ExchangeFails Spec.saber fours (List.ofFn fun _ : Fin Spec.saber.secretBytes => (0x00 : Byte))
      (List.ofFn fun _ : Fin Spec.saber.secretBytes => (0x00 : Byte)) := by
  unfold ExchangeFails
  rw [secret_const 0x0f 4 (by decide), secret_const 0x01 1 (by decide), secret_const 0x00 0 (by decide)]
  exact And.intro (Exists.intro 255 noise_fours) fun h => h.elim fun k hk => hk (noise_zeros k)

/-- The exponents of the bounds for the idealised exchange. -/
def idealBits : PSet → Nat
  | .light => 115
  | .saber => 131
  | .fire => 160

/-- C65: with independent uniformly distributed rounding errors the fraction of failures is at most 2^-115, 2^-131 and 2^-160. -/
theorem C65_ideal_failure_bound (P : PSet) : fraction (IdealFails (params P)) ≤ 1 / 2 ^ idealBits P := by
  cases P
  · have h := term_le .light 10 9 1 123 (by decide) (by decide) (by decide +kernel)
    refine le_trans (fraction_ideal .light ((10 : Nat) / (9 : Nat)) 1 1 (by norm_num) (by norm_num) (by norm_num)) ?_
    rw [one_pow, mul_one]
    unfold idealBits
    linarith
  · have h := term_le .saber 31 28 1 139 (by decide) (by decide) (by decide +kernel)
    refine le_trans (fraction_ideal .saber ((31 : Nat) / (28 : Nat)) 1 1 (by norm_num) (by norm_num) (by norm_num)) ?_
    rw [one_pow, mul_one]
    unfold idealBits
    linarith
  · have h1 := term_le .fire 22500 20400 47933550349223787 220 (by decide) (by decide) (by decide +kernel)
    have h2 := le_term .fire 22650 20400 10107837501843382 220 (by decide) (by decide) (by decide +kernel)
    have h3 := term_le .fire 22801 20400 4824449950809872 220 (by decide) (by decide) (by decide +kernel)
    refine le_trans (fraction_ideal .fire ((22500 : Nat) / (20400 : Nat)) (151 / 150) (6 / 5) (by norm_num) (by norm_num) (by norm_num)) ?_
    rw [show ((22500 : Nat) / (20400 : Nat) : ℚ) * (151 / 150) = (22650 : Nat) / (20400 : Nat) by norm_num,
      show ((22500 : Nat) / (20400 : Nat) : ℚ) * (151 / 150) ^ 2 = (22801 : Nat) / (20400 : Nat) by norm_num]
    unfold idealBits
    linarith

/-- A draw for which the idealised exchange of Saber fails: secrets with all coefficients 4 and rounding errors 4 and 0. -/
def badDraw : IdealDraw Spec.saber := ((fun _ => 0x0f, fun _ => 0x0f), (fun _ _ => 7, fun _ _ => 3), fun _ => 32)

/-- A draw for which it does not fail: the same secrets without rounding errors. -/
def goodDraw : IdealDraw Spec.saber := ((fun _ => 0x0f, fun _ => 0x0f), (fun _ _ => 3, fun _ _ => 3), fun _ => 32)

theorem fails_of (P : Params) (d : IdealDraw P) (k : Fin 256) (v : Int) (h : idealNoise P d k = v) (hv : ¬ (v + 2048) % 8192 < 4096) :
    IdealFails P d := by
  refine Exists.intro k ?_
  unfold NoiseOk
  rw [h]
  exact hv

theorem bad_noise : idealNoise Spec.saber badDraw 255 = 12288 := by
  unfold idealNoise badDraw
  rw [secret_const 0x0f 4 (by decide)]
  decide +kernel

theorem good_noise : idealNoise Spec.saber goodDraw 255 = 0 := by
  unfold idealNoise goodDraw
  rw [secret_const 0x0f 4 (by decide)]
  decide +kernel

example : IdealFails Spec.saber badDraw := fails_of _ _ _ _ bad_noise (by decide)

end Saber.Props
