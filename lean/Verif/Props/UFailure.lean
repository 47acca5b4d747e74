import Verif.Proof.U.Failure
import Verif.Props.Failure
/-!
# Failure probability of uSaber and Saber-90s: C77

`Spec/UFailure.lean` says what an exchange, an idealised exchange and their failure are for a build `f` of `Variants/uSaber-90s/ref`.
-/
namespace Saber.Props
open Spec Saber.Law Saber.Prob Saber.U.Law

/-- 1 for the numbers in `[-2, 1]`, 0 for all others: the weight of a uniform distribution on `[-2, 1]`. -/
def uniformWeight (v : Int) : Nat := if -2 ≤ v ∧ v ≤ 1 then 1 else 0

theorem count_val2 (v : Int) : count (fun b : Fin 4 => val2 b = v) = uniformWeight v := by
  have h : ∀ v : Int, (¬ (-2 ≤ v ∧ v ≤ 1)) ∨ v = -2 ∨ v = -1 ∨ v = 0 ∨ v = 1 := by intro v; omega
  refine Eq.trans (count_fin 4 fun w => (if w < 2 then (w : Int) else (w : Int) - 4) = v) ?_
  unfold uniformWeight
  rcases h v with h | rfl | rfl | rfl | rfl
  · rw [if_neg h, List.length_eq_zero_iff, List.filter_eq_nil_iff]
    intro w hw
    have := List.mem_range.1 hw
    rw [decide_eq_true_iff]
    split <;> omega
  all_goals decide

theorem uniform2_val2 (bs : List Byte) (n : Fin 256) :
    USpec.uniform2 bs n = val2 ⟨natOfBits 2 fun j => bitAt bs (2 * n.val + j), natOfBits_lt _ _⟩ := by
  unfold USpec.uniform2 unpack val2
  norm_num

theorem val2_range (b : Fin 4) : -2 ≤ val2 b ∧ val2 b ≤ 1 := by
  revert b
  decide

/-- C77: on uniformly distributed bytes the 256 coefficients that the sampler of uSaber writes are independent and uniformly distributed on
`[-2, 1]`: every sequence of 256 numbers in `[-2, 1]` is written for exactly one string of 64 bytes, any other for none. -/
theorem C77_joint_law (s : List (BitVec 16)) (hs : s.length = 256) (t : Fin 256 → Int) :
    count (fun b : Bytes 64 => ∃ r, U.uniformRow s (List.ofFn b) 0 = .ok r ∧ ∀ i : Fin 256, (r.getD i.val 0).toInt = t i)
      = ∏ i, uniformWeight (t i) := by
  have e : count (fun b : Bytes 64 => ∃ r, U.uniformRow s (List.ofFn b) 0 = .ok r ∧ ∀ i : Fin 256, (r.getD i.val 0).toInt = t i)
      = count (fun w : Fin 256 → Fin 4 => ∀ i, val2 (w i) = t i) := by
    refine Eq.trans (congrArg count (funext fun b => ?_)) (count_equiv (polyEquiv 2) fun w : Fin 256 → Fin 4 => ∀ i, val2 (w i) = t i)
    have h1 := U.uniformRow_ok s (List.ofFn b) 0 hs (by simp)
    rw [List.drop_zero] at h1
    have h2 : ∀ i : Fin 256, ((ofP (USpec.uniform2 (List.ofFn b))).getD i.val 0).toInt = val2 (polyEquiv 2 b i) := by
      intro i
      have hi : Fin.ofNat 256 i.val = i := by simp
      have hr := val2_range (polyEquiv 2 b i)
      rw [ofP, getD_map_range _ _ _ _ i.isLt, hi, uniform2_val2, BitVec.toInt_ofInt]
      exact Int.bmod_eq_of_le (by show _ ≤ val2 (polyEquiv 2 b i); omega) (by show val2 (polyEquiv 2 b i) < _; omega)
    refine propext ⟨fun ⟨r', e1, e2⟩ i => ?_, fun h => ⟨_, h1, fun i => ?_⟩⟩
    · rw [h1, Except.ok.injEq] at e1
      subst e1
      rw [← e2 i, h2 i]
    · rw [← h i, h2 i]
  rw [e, count_pi (fun i (b : Fin 4) => val2 b = t i)]
  exact Finset.prod_congr rfl fun i _ => count_val2 (t i)

/-- The byte strings of a uSaber secret are families of patterns of two bits. -/
def secretEquiv2 (P : PSet) (s90 : Bool) : Bytes (variant ⟨P, true, s90⟩).secretBytes ≃ (Fin (params P).l → Fin 256 → Fin 4) :=
  vecEquiv (params P).l 2

theorem secretFrom_pat2 (P : PSet) (s90 : Bool) (b : Bytes (variant ⟨P, true, s90⟩).secretBytes) :
    USpec.secretFrom (variant ⟨P, true, s90⟩) (List.ofFn b) = vals2 (secretEquiv2 P s90 b) := by
  funext i n
  show USpec.uniform2 ((List.ofFn b).drop (i.val * 2 * 32)) n = _
  rw [uniform2_val2, show i.val * 2 * 32 = 32 * 2 * i.val by ring]
  rfl

/-- C77: the same for the secret vector: its `256 l` coefficients are independent and uniformly distributed on `[-2, 1]`. -/
theorem C77_secret_law (P : PSet) (s90 : Bool) (t : PVec (params P).l) :
    count (fun b : Bytes (variant ⟨P, true, s90⟩).secretBytes => USpec.secretFrom (variant ⟨P, true, s90⟩) (List.ofFn b) = t)
      = ∏ i, ∏ k, uniformWeight (t i k) := by
  have e : count (fun b : Bytes (variant ⟨P, true, s90⟩).secretBytes => USpec.secretFrom (variant ⟨P, true, s90⟩) (List.ofFn b) = t)
      = count (fun w : Fin (params P).l → Fin 256 → Fin 4 => ∀ i, ∀ k, val2 (w i k) = t i k) := by
    refine Eq.trans (congrArg count (funext fun b => ?_)) (count_equiv (secretEquiv2 P s90)
      fun w : Fin (params P).l → Fin 256 → Fin 4 => ∀ i, ∀ k, val2 (w i k) = t i k)
    rw [secretFrom_pat2]
    exact propext ⟨fun h i k => by rw [← h]; rfl, fun h => funext fun i => funext fun k => h i k⟩
  rw [e, count_pi (fun i (v : Fin 256 → Fin 4) => ∀ k, val2 (v k) = t i k)]
  refine Finset.prod_congr rfl fun i _ => ?_
  rw [count_pi (fun k (b : Fin 4) => val2 b = t i k)]
  exact Finset.prod_congr rfl fun k _ => count_val2 (t i k)

theorem sample_range (f : U.Cfg) (bs : List Byte) (n : Fin 256) : -5 ≤ USpec.sample (variant f) bs n ∧ USpec.sample (variant f) bs n ≤ 5 := by
  obtain ⟨P, u, s90⟩ := f
  cases u
  · show -5 ≤ centredBinomial (params P).mu bs n ∧ centredBinomial (params P).mu bs n ≤ 5
    rw [centredBinomial_pattern _ (mu_even P)]
    have h := patternValue_range (params P).mu (natOfBits (params P).mu fun j => bitAt bs ((params P).mu * n.val + j))
    have h2 : ((params P).mu / 2 : Nat) ≤ 5 := by cases P <;> decide
    omega
  · show -5 ≤ USpec.uniform2 bs n ∧ USpec.uniform2 bs n ≤ 5
    rw [uniform2_val2]
    have := val2_range ⟨natOfBits 2 fun j => bitAt bs (2 * n.val + j), natOfBits_lt _ _⟩
    omega

/-- C77: the secret that key generation and encryption of a build use is `secretFrom` of the expansion of the seed. -/
theorem C77_GenSecret (f : U.Cfg) (s : List (List (BitVec 16))) (hv : IsVec f.P.L s) (seed : List Byte) (hs : seed.length = 32) :
    ∃ s', U.GenSecret f s seed 0 = .ok s' ∧ ∀ (i : Fin (params f.P).l) (k : Fin 256),
      ((s'.getD i.val []).getD k.val 0).toInt = USpec.secretFrom (variant f) ((variant f).sym.prf seed (variant f).secretBytes) i k := by
  refine ⟨_, U.GenSecret_ok f s hv seed 0 (by omega), fun i k => ?_⟩
  have hl : (params f.P).l = f.P.L := by cases f.P <;> rfl
  have hi : i.val < f.P.L := hl ▸ i.isLt
  rw [List.drop_zero, List.take_of_length_le (by omega)]
  have hk : Fin.ofNat 256 k.val = k := by simp
  have hg : (ofV (L := f.P.L) (USpec.genSecret (U.Cfg.spec f) seed)).getD i.val []
      = ofP (USpec.genSecret (U.Cfg.spec f) seed ⟨i.val, hi⟩) := by
    simp [ofV, hi]
  rw [hg, ofP, getD_map_range _ _ _ _ k.isLt, hk, BitVec.toInt_ofInt]
  have e : USpec.genSecret (U.Cfg.spec f) seed ⟨i.val, hi⟩ k
      = USpec.secretFrom (variant f) ((variant f).sym.prf seed (variant f).secretBytes) i k := by
    obtain ⟨P, u, s90⟩ := f
    cases P <;> rfl
  rw [e]
  have hr := sample_range f (((variant f).sym.prf seed (variant f).secretBytes).drop (i.val * (variant f).coinBits * 32)) k
  exact Int.bmod_eq_of_le (le_trans (by norm_num) hr.1) (lt_of_le_of_lt hr.2 (by norm_num))

/-- C77: the exchange fails for the bytes that the code expands from its seeds exactly if decryption returns a wrong message. -/
theorem C77_fails_iff {σ : Type} (f : U.Cfg) (rb : RandomBytes σ) (st st1 st2 : σ) (r1 r2 : List Byte)
    (h1 : Delivers rb 32 st r1 st1) (h2 : Delivers rb 32 st1 r2 st2) (pkb skb cb mb : List Byte)
    (hpk : pkb.length = f.INDCPA_PUBLICKEYBYTES) (hsk : skb.length = f.INDCPA_SECRETKEYBYTES) (hc : cb.length = f.BYTES_CCA_DEC)
    (hm : mb.length = 32) (m coins : List Byte) (hml : m.length = 32) (hcl : coins.length = 32) :
    ∃ pk sk c m', U.indcpa_kem_keypair f rb pkb skb st = .ok (pk, sk, st2) ∧ U.indcpa_kem_enc f m 0 coins 0 pk 0 cb = .ok c ∧
      U.indcpa_kem_dec f sk c mb = .ok m' ∧
      (m' ≠ m ↔ USpec.ExchangeFails (variant f) (USpec.genMatrix (variant f) ((variant f).sym.prf r1 32))
        ((variant f).sym.prf r2 (variant f).secretBytes) ((variant f).sym.prf coins (variant f).secretBytes)) := by
  obtain ⟨pk, sk, c, m', e1, e2, e3, _, _, e4⟩ := C35_failure_criterion f rb st st1 st2 r1 r2 h1 h2 pkb skb cb mb hpk hsk hc hm m coins hml hcl
  refine ⟨pk, sk, c, m', e1, e2, e3, ?_⟩
  rw [Ne, e4, not_forall]
  rfl

theorem fraction_ideal2 (P : PSet) (s90 : Bool) (heT : (params P).eT ≤ 9) (x : ℚ) (hx : 1 ≤ x) :
    fraction (USpec.IdealFails (variant ⟨P, true, s90⟩)) ≤ 256 * tailTerm (params P).l (params P).eT x := by
  have hD : 2 ^ (10 - (params P).eT) = 2 * 2 ^ (9 - (params P).eT) := by
    rw [← pow_succ', show 9 - (params P).eT + 1 = 10 - (params P).eT by omega]
  let E : USpec.IdealDraw (variant ⟨P, true, s90⟩) ≃ PatDraw (params P).l (params P).eT :=
    Equiv.prodCongr (Equiv.prodCongr (secretEquiv2 P s90) (secretEquiv2 P s90))
      (Equiv.prodCongr (Equiv.refl _) (Equiv.arrowCongr (Equiv.refl _) (finCongr hD)))
  have e : count (USpec.IdealFails (variant ⟨P, true, s90⟩))
      ≤ count (fun d : PatDraw (params P).l (params P).eT => ∃ k, 1024 ≤ patNoise _ _ k d ∨ 1025 ≤ -patNoise _ _ k d) := by
    refine le_trans (count_mono fun d hd => ?_) (le_of_eq (count_equiv E
      fun d : PatDraw (params P).l (params P).eT => ∃ k, 1024 ≤ patNoise _ _ k d ∨ 1025 ≤ -patNoise _ _ k d))
    obtain ⟨k, hk⟩ := hd
    refine ⟨k, ?_⟩
    have hn : USpec.idealNoise (variant ⟨P, true, s90⟩) d k = patNoise _ _ k (E d) := by
      unfold USpec.idealNoise U.Law.patNoise
      rw [secretFrom_pat2, secretFrom_pat2]
      have h1 : USpec.h1 (variant ⟨P, true, s90⟩).eq = 2 := rfl
      have h2 : ∀ v : Int, v + 1 - 2 = v - 1 := by intro v; ring
      have h3 : (2 : Int) ^ ((variant ⟨P, true, s90⟩).eq - 10) = 4 := rfl
      have h4 : (2 : Int) ^ (10 - (variant ⟨P, true, s90⟩).eT - 1) = ((2 ^ (9 - (params P).eT) : Nat) : Int) := by
        rw [show 10 - (variant ⟨P, true, s90⟩).eT - 1 = 9 - (params P).eT by show 10 - (params P).eT - 1 = _; omega]
        push_cast
        rfl
      simp only [h1, h2, h3, h4]
      rfl
    unfold USpec.NoiseOk at hk
    rw [hn, show (variant ⟨P, true, s90⟩).eq = 12 from rfl] at hk
    norm_num at hk
    omega
  unfold fraction
  rw [Fintype.card_congr E]
  have hN : (0 : ℚ) < (Fintype.card (PatDraw (params P).l (params P).eT) : ℚ) := by rw [U.Law.card_draw]; positivity
  rw [div_le_iff₀ hN]
  exact le_trans (Nat.cast_le.2 e) (fraction_pat _ _ x hx)

/-- The exponents of the bounds for the idealised exchange of uLightSaber, uSaber and uFireSaber. -/
def idealBits2 : PSet → Nat
  | .light => 186
  | .saber => 168
  | .fire => 152

/-- C77: with independent uniformly distributed rounding errors the fraction of failures of uLightSaber, uSaber and uFireSaber, with either
set of symmetric functions, is at most 2^-186, 2^-168 and 2^-152. -/
theorem C77_ideal_failure_bound (P : PSet) (s90 : Bool) : fraction (USpec.IdealFails (variant ⟨P, true, s90⟩)) ≤ 1 / 2 ^ idealBits2 P := by
  cases P
  · have h := U.Law.term_le 2 3 7 5 194 (by decide) (by decide) (by decide +kernel)
    refine le_trans (fraction_ideal2 .light s90 (by decide) ((7 : Nat) / (5 : Nat)) (by norm_num)) ?_
    show 256 * U.Law.tailTerm 2 3 _ ≤ _
    unfold idealBits2
    linarith
  · have h := U.Law.term_le 3 4 43 33 176 (by decide) (by decide) (by decide +kernel)
    refine le_trans (fraction_ideal2 .saber s90 (by decide) ((43 : Nat) / (33 : Nat)) (by norm_num)) ?_
    show 256 * U.Law.tailTerm 3 4 _ ≤ _
    unfold idealBits2
    linarith
  · have h := U.Law.term_le 4 6 5 4 160 (by decide) (by decide) (by decide +kernel)
    refine le_trans (fraction_ideal2 .fire s90 (by decide) ((5 : Nat) / (4 : Nat)) (by norm_num)) ?_
    show 256 * U.Law.tailTerm 4 6 _ ≤ _
    unfold idealBits2
    linarith

/-- C77: without the option uSaber, with either set of symmetric functions, the bounds are those of Saber. -/
theorem C77_ideal_failure_bound_binomial (P : PSet) (s90 : Bool) :
    fraction (USpec.IdealFails (variant ⟨P, false, s90⟩)) ≤ 1 / 2 ^ idealBits P := by
  refine le_trans (le_of_eq ?_) (C65_ideal_failure_bound P)
  refine congrArg (fraction (Ω := Spec.IdealDraw (params P))) (funext fun d => ?_)
  have h1 : USpec.h1 (variant ⟨P, false, s90⟩).eq = 4 := rfl
  have h2 : ∀ v : Int, v + 1 - 4 = v - 3 := by intro v; ring
  have h3 : (2 : Int) ^ ((variant ⟨P, false, s90⟩).eq - 10) = 8 := rfl
  have e : USpec.idealNoise (variant ⟨P, false, s90⟩) d = Spec.idealNoise (params P) d := by
    funext k
    unfold USpec.idealNoise Spec.idealNoise
    simp only [h1, h2, h3]
    rfl
  show (∃ k, ¬ USpec.NoiseOk 13 (USpec.idealNoise (variant ⟨P, false, s90⟩) d) k) = ∃ k, ¬ Spec.NoiseOk (Spec.idealNoise (params P) d) k
  rw [e]
  rfl

/-! ### Examples -/

/-- The secret sampled from equal bytes. -/
theorem secret_const2 (c : Byte) (v : Int) (hv : ∀ n : Fin 4, val2 ⟨natOfBits 2 fun j => c.getLsbD (2 * n.val + j), natOfBits_lt _ _⟩ = v) :
    USpec.secretFrom (variant ⟨.saber, true, false⟩) (List.ofFn fun _ : Fin 192 => c) = fun _ _ => v := by
  funext i n
  show USpec.uniform2 ((List.ofFn fun _ : Fin 192 => c).drop (i.val * 2 * 32)) n = v
  rw [uniform2_val2, ← hv ⟨n.val % 4, by omega⟩]
  congr 2
  refine natOfBits_congr fun j hj => ?_
  rw [bitAt_drop]
  unfold bitAt
  have hi : i.val < 3 := i.isLt
  have hn := n.isLt
  rw [List.getD_eq_getElem?_getD, List.getElem?_ofFn, dif_pos (by omega)]
  simp only [Option.getD_some]
  congr 1
  omega

/-- A draw for which the idealised exchange of uSaber fails: secrets with all coefficients 1 and -2 and rounding errors 2. -/
def badDraw2 : USpec.IdealDraw (variant ⟨.saber, true, false⟩) :=
  ((fun _ => 0x55, fun _ => 0xaa), (fun _ _ => (3 : Fin 4), fun _ _ => (3 : Fin 4)), fun _ => (32 : Fin 64))

/-- A draw for which it does not fail: the same secrets without rounding errors. -/
def goodDraw2 : USpec.IdealDraw (variant ⟨.saber, true, false⟩) :=
  ((fun _ => 0x55, fun _ => 0xaa), (fun _ _ => (1 : Fin 4), fun _ _ => (1 : Fin 4)), fun _ => (32 : Fin 64))

theorem bad_noise2 : USpec.idealNoise (variant ⟨.saber, true, false⟩) badDraw2 191 = 2304 := by
  unfold USpec.idealNoise badDraw2
  rw [show (List.ofFn fun _ : Fin (variant ⟨.saber, true, false⟩).secretBytes => (0x55 : Byte)) = List.ofFn fun _ : Fin 192 => (0x55 : Byte) from rfl,
    show (List.ofFn fun _ : Fin (variant ⟨.saber, true, false⟩).secretBytes => (0xaa : Byte)) = List.ofFn fun _ : Fin 192 => (0xaa : Byte) from rfl]
  simp only [secret_const2 0x55 1 (by decide), secret_const2 0xaa (-2) (by decide)]
  decide +kernel

theorem good_noise2 (k : Fin 256) : USpec.idealNoise (variant ⟨.saber, true, false⟩) goodDraw2 k = 0 := by
  have z : ∀ v : PVec 3, innerProd (fun _ _ => ((1 : Fin 4).val : Int) + 1 - USpec.h1 12) v k = 0 := by
    intro v
    unfold innerProd negMul
    simp [USpec.h1]
  have z2 := z (USpec.secretFrom (variant ⟨.saber, true, false⟩) (List.ofFn goodDraw2.1.1))
  have z3 := z (USpec.secretFrom (variant ⟨.saber, true, false⟩) (List.ofFn goodDraw2.1.2))
  unfold USpec.idealNoise
  refine Eq.trans (congrArg₂ (fun x y : Int => x - y + 4 * (32 - 2 ^ 5)) z2 z3) ?_
  norm_num

/-- The idealised exchange of uSaber fails for the first draw and does not fail for the second. -/
example : USpec.IdealFails (variant ⟨.saber, true, false⟩) badDraw2 ∧ ¬ USpec.IdealFails (variant ⟨.saber, true, false⟩) goodDraw2 := by
  refine ⟨⟨191, ?_⟩, fun ⟨k, hk⟩ => hk ?_⟩
  · unfold USpec.NoiseOk
    rw [bad_noise2]
    decide
  · unfold USpec.NoiseOk
    rw [good_noise2]
    decide

/-- The law of the sampler is not trivial: one string of 64 bytes gives 256 times -2, none gives a coefficient 2. -/
example : count (fun b : Bytes 64 => ∃ r, U.uniformRow (List.replicate 256 0) (List.ofFn b) 0 = .ok r ∧ ∀ i : Fin 256, (r.getD i.val 0).toInt = -2) = 1 ∧
    count (fun b : Bytes 64 => ∃ r, U.uniformRow (List.replicate 256 0) (List.ofFn b) 0 = .ok r ∧ ∀ i : Fin 256, (r.getD i.val 0).toInt = 2) = 0 := by
  rw [C77_joint_law _ List.length_replicate fun _ => -2, C77_joint_law _ List.length_replicate fun _ => 2]
  refine ⟨?_, ?_⟩
  · rw [show uniformWeight (-2) = 1 by decide, Finset.prod_const_one]
  · rw [show uniformWeight 2 = 0 by decide]
    exact Finset.prod_eq_zero (Finset.mem_univ 0) rfl

/-- The hypotheses of `C77_fails_iff` are met by the generator that reads from a tape. -/
example : ∃ st1 st2 : List Byte × List Nat, ∃ r1 r2, Delivers tapeRng 32 ((List.range 64).map n8, []) r1 st1 ∧ Delivers tapeRng 32 st1 r2 st2 ∧
    (List.replicate 992 (0 : Byte)).length = U.Cfg.INDCPA_PUBLICKEYBYTES ⟨.saber, true, true⟩ := by
  refine ⟨_, _, _, _, tapeRng_delivers 32 _ _ (by simp), tapeRng_delivers 32 _ _ (by simp), ?_⟩
  rw [List.length_replicate]
  decide

end Saber.Props
