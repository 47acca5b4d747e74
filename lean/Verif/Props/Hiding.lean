import Verif.Proof.Hiding
import Verif.Proof.U.Indcpa
import Verif.Props.Kem
import Verif.Props.USaber
/-!
# C80: encryption hides the message

`Spec/Hiding.lean` defines attackers and the advantages in the two rounding problems.  The games here are played with the code: `codeRuns` is key
generation and encryption.
-/
namespace Saber.Props
open Spec Saber.Hiding Saber.Prob

/-- Key generation and encryption of the message that `msg` chooses for the public key, with the reference implementation, give the public key `pk` and the
ciphertext `c`.  The generator returns `r1` and `r2` for the key; `e` are the coins of the encryption; `pkb`, `skb` and `cb` are the contents of the
output buffers before the calls. -/
def codeRuns (P : PSet) (pkb skb cb : List Byte) (r1 r2 e : Bytes 32) (msg : List Byte → List Byte) (pk c : List Byte) : Prop :=
  ∃ sk st, indcpa_kem_keypair P tapeRng pkb skb (List.ofFn r1 ++ List.ofFn r2, []) = .ok (pk, sk, st) ∧
    indcpa_kem_enc P (msg pk) 0 (List.ofFn e) 0 pk 0 cb = .ok c

/-- The same with uSaber or a 90s variant. -/
def codeRunsU (f : U.Cfg) (pkb skb cb : List Byte) (r1 r2 e : Bytes 32) (msg : List Byte → List Byte) (pk c : List Byte) : Prop :=
  ∃ sk st, U.indcpa_kem_keypair f tapeRng pkb skb (List.ofFn r1 ++ List.ofFn r2, []) = .ok (pk, sk, st) ∧
    U.indcpa_kem_enc f (msg pk) 0 (List.ofFn e) 0 pk 0 cb = .ok c

/-- The game: the attacker sees the public key, chooses two messages, sees the ciphertext of one of them, the one given by `b`, and guesses `b`. -/
def wins (runs : (List Byte → List Byte) → List Byte → List Byte → Prop) {Ω : Type} (a : Attacker Ω) (ω : Ω) (b : Bool) : Prop :=
  ∃ pk c, runs (fun pk => a.messages ω pk b) pk c ∧ a.guess ω pk c = b

/-- Recovery of a message from the public key and the ciphertext. -/
def finds (runs : (List Byte → List Byte) → List Byte → List Byte → Prop) {Ω : Type} (R : Ω → List Byte → List Byte → List Byte) (ω : Ω) (m : Bytes 32) : Prop :=
  ∃ pk c, runs (fun _ => List.ofFn m) pk c ∧ R ω pk c = List.ofFn m

theorem delivers_two (r1 r2 : Bytes 32) : Delivers tapeRng 32 (List.ofFn r1 ++ List.ofFn r2, []) (List.ofFn r1) (List.ofFn r2, [32]) ∧
    Delivers tapeRng 32 (List.ofFn r2, [32]) (List.ofFn r2) ([], [32, 32]) := by
  have l1 : (List.ofFn r1).length = 32 := List.length_ofFn
  have l2 : (List.ofFn r2).length = 32 := List.length_ofFn
  have d1 := tapeRng_delivers 32 (List.ofFn r1 ++ List.ofFn r2) [] (by rw [List.length_append]; omega)
  have d2 := tapeRng_delivers 32 (List.ofFn r2) [32] (by omega)
  rw [List.take_append_of_le_length (by omega), List.take_of_length_le (by omega), List.drop_append_of_le_length (by omega),
    List.drop_of_length_le (by omega), List.nil_append] at d1
  rw [List.take_of_length_le (by omega), List.drop_of_length_le (by omega)] at d2
  exact ⟨d1, d2⟩

theorem saberPke_enc (P : Params) (m e pk : List Byte) : (saberPke P).enc m e pk = pkeEnc P m e pk := by
  unfold Pke.enc pkeEnc saberPke roundP roundTo10 encodeMsg Spec.h1
  norm_num

theorem uPke_enc (P : USpec.Params) (m e pk : List Byte) : (uPke P).enc m e pk = USpec.pkeEnc P m e pk := by
  unfold Pke.enc USpec.pkeEnc uPke USpec.roundP roundTo10 USpec.encodeMsg USpec.h1
  rfl

theorem ET_le (P : PSet) : P.ET ≤ 7 := by cases P <;> decide

theorem U_eq (f : U.Cfg) : (uPke f.spec).eq = 12 ∨ (uPke f.spec).eq = 13 := by
  show f.EQ = 12 ∨ f.EQ = 13
  unfold U.Cfg.EQ
  split <;> simp

theorem U_ET_le (f : U.Cfg) : (uPke f.spec).eT ≤ 7 := ET_le f.P

theorem codeRuns_iff (P : PSet) (pkb skb cb : List Byte) (hpk : pkb.length = P.INDCPA_PUBLICKEYBYTES) (hsk : skb.length = P.INDCPA_SECRETKEYBYTES)
    (hc : cb.length = P.BYTES_CCA_DEC) (r1 r2 e : Bytes 32) (msg : List Byte → List Byte) (hm : ∀ pk, (msg pk).length = 32) (pk c : List Byte) :
    codeRuns P pkb skb cb r1 r2 e msg pk c ↔ pk = (saberPke P.spec).realKey r1 r2 ∧ c = (saberPke P.spec).enc (msg pk) (List.ofFn e) pk := by
  obtain ⟨d1, d2⟩ := delivers_two r1 r2
  have k := indcpa_keypair_ok P tapeRng _ _ _ _ _ d1 d2 pkb skb hpk (by omega)
  have lk : (pkeKeyGenPk P.spec (Keccak.shake128 (List.ofFn r1) 32) (List.ofFn r2)).length = P.INDCPA_PUBLICKEYBYTES :=
    length_kemPk P.spec (List.ofFn r1) (List.ofFn r2)
  have hkey : pkeKeyGenPk P.spec (Keccak.shake128 (List.ofFn r1) 32) (List.ofFn r2) = (saberPke P.spec).realKey r1 r2 := by
    unfold Pke.realKey Pke.key pkeKeyGenPk pubVec saberPke roundP roundTo10 Spec.h1
    norm_num
  rw [hkey] at k lk
  rw [saberPke_enc]
  unfold codeRuns
  rw [k]
  generalize (saberPke P.spec).realKey r1 r2 = pk' at *
  have en := indcpa_enc_ok P (msg pk') 0 (List.ofFn e) 0 pk' 0 cb (by rw [hm]) (by simp) (by omega) hc
  rw [List.drop_zero, List.drop_zero, List.drop_zero, List.take_of_length_le (by rw [hm]), List.take_of_length_le (by simp),
    List.take_of_length_le (by omega)] at en
  constructor
  · rintro ⟨sk, st, h1, h2⟩
    simp only [Except.ok.injEq, Prod.mk.injEq] at h1
    obtain ⟨rfl, -, -⟩ := h1
    rw [en, Except.ok.injEq] at h2
    exact ⟨rfl, h2.symm⟩
  · rintro ⟨rfl, rfl⟩
    exact ⟨_, _, rfl, en⟩

theorem codeRunsU_iff (f : U.Cfg) (pkb skb cb : List Byte) (hpk : pkb.length = f.INDCPA_PUBLICKEYBYTES) (hsk : skb.length = f.INDCPA_SECRETKEYBYTES)
    (hc : cb.length = f.BYTES_CCA_DEC) (r1 r2 e : Bytes 32) (msg : List Byte → List Byte) (hm : ∀ pk, (msg pk).length = 32) (pk c : List Byte) :
    codeRunsU f pkb skb cb r1 r2 e msg pk c ↔ pk = (uPke f.spec).realKey r1 r2 ∧ c = (uPke f.spec).enc (msg pk) (List.ofFn e) pk := by
  obtain ⟨d1, d2⟩ := delivers_two r1 r2
  have k := U.indcpa_keypair_ok f tapeRng _ _ _ _ _ d1 d2 pkb skb hpk (by omega)
  have hpl : f.INDCPA_PUBLICKEYBYTES = f.P.L * 320 + 32 := rfl
  have lk : (USpec.pkeKeyGenPk f.spec (f.sym.prf (List.ofFn r1) 32) (List.ofFn r2)).length = f.INDCPA_PUBLICKEYBYTES := by
    rw [hpl]
    exact U.length_kemPk f (List.ofFn r1) (List.ofFn r2) (by simp)
  have hkey : USpec.pkeKeyGenPk f.spec (f.sym.prf (List.ofFn r1) 32) (List.ofFn r2) = (uPke f.spec).realKey r1 r2 := by
    unfold Pke.realKey Pke.key USpec.pkeKeyGenPk USpec.pubVec uPke USpec.roundP roundTo10 USpec.h1
    rfl
  rw [hkey] at k lk
  rw [uPke_enc]
  unfold codeRunsU
  rw [k]
  generalize (uPke f.spec).realKey r1 r2 = pk' at *
  have en := U.indcpa_enc_ok f (msg pk') 0 (List.ofFn e) 0 pk' 0 cb (by rw [hm]) (by simp) (by omega) hc
  rw [List.drop_zero, List.drop_zero, List.drop_zero, List.take_of_length_le (by rw [hm]), List.take_of_length_le (by simp),
    List.take_of_length_le (by omega)] at en
  constructor
  · rintro ⟨sk, st, h1, h2⟩
    simp only [Except.ok.injEq, Prod.mk.injEq] at h1
    obtain ⟨rfl, -, -⟩ := h1
    rw [en, Except.ok.injEq] at h2
    exact ⟨rfl, h2.symm⟩
  · rintro ⟨rfl, rfl⟩
    exact ⟨_, _, rfl, en⟩

theorem wins_iff (S : Pke) (runs : Bytes 32 → Bytes 32 → Bytes 32 → (List Byte → List Byte) → List Byte → List Byte → Prop)
    (h : ∀ r1 r2 e msg, (∀ pk, (msg pk).length = 32) → ∀ pk c, runs r1 r2 e msg pk c ↔ pk = S.realKey r1 r2 ∧ c = S.enc (msg pk) (List.ofFn e) pk)
    {Ω : Type} (a : Attacker Ω) (ha : a.Fair) (ω : Ω) (r1 r2 e : Bytes 32) (b : Bool) : wins (runs r1 r2 e) a ω b ↔ keyWins S a ω r1 r2 e b := by
  unfold wins
  constructor
  · rintro ⟨pk, c, h1, h2⟩
    obtain ⟨rfl, rfl⟩ := (h _ _ _ _ (fun pk => ha ω pk b) _ _).mp h1
    exact h2
  · intro h2
    exact ⟨_, _, (h _ _ _ _ (fun pk => ha ω pk b) _ _).mpr ⟨rfl, rfl⟩, h2⟩

theorem finds_iff (S : Pke) (runs : Bytes 32 → Bytes 32 → Bytes 32 → (List Byte → List Byte) → List Byte → List Byte → Prop)
    (h : ∀ r1 r2 e msg, (∀ pk, (msg pk).length = 32) → ∀ pk c, runs r1 r2 e msg pk c ↔ pk = S.realKey r1 r2 ∧ c = S.enc (msg pk) (List.ofFn e) pk)
    {Ω : Type} (R : Ω → List Byte → List Byte → List Byte) (ω : Ω) (r1 r2 e m : Bytes 32) : finds (runs r1 r2 e) R ω m ↔ recovers S List.ofFn R ω r1 r2 e m m := by
  unfold finds
  constructor
  · rintro ⟨pk, c, h1, h2⟩
    obtain ⟨rfl, rfl⟩ := (h _ _ _ _ (fun pk => List.length_ofFn) _ _).mp h1
    exact h2
  · intro h2
    exact ⟨_, _, (h _ _ _ _ (fun pk => List.length_ofFn) _ _).mpr ⟨rfl, rfl⟩, h2⟩

theorem wins_bound (S : Pke) (hq : S.eq = 12 ∨ S.eq = 13) (hT : S.eT ≤ 7) (runs : Bytes 32 → Bytes 32 → Bytes 32 → (List Byte → List Byte) → List Byte → List Byte → Prop)
    (h : ∀ r1 r2 e msg, (∀ pk, (msg pk).length = 32) → ∀ pk c, runs r1 r2 e msg pk c ↔ pk = S.realKey r1 r2 ∧ c = S.enc (msg pk) (List.ofFn e) pk)
    {Ω : Type} [Fintype Ω] [Nonempty Ω] (a : Attacker Ω) (ha : a.Fair) :
    |fraction (fun d : Ω × Bytes 32 × Bytes 32 × Bytes 32 × Bool => wins (runs d.2.1 d.2.2.1 d.2.2.2.1) a d.1 d.2.2.2.2) - 1 / 2| ≤
      keyAdvantage S (keyAttack S a) + encAdvantage S (encAttack S a) :=
  game_bound S hq hT a (fun ω r1 r2 e b => wins (runs r1 r2 e) a ω b) (wins_iff S runs h a ha)

theorem finds_bound (S : Pke) (hq : S.eq = 12 ∨ S.eq = 13) (hT : S.eT ≤ 7) (runs : Bytes 32 → Bytes 32 → Bytes 32 → (List Byte → List Byte) → List Byte → List Byte → Prop)
    (h : ∀ r1 r2 e msg, (∀ pk, (msg pk).length = 32) → ∀ pk c, runs r1 r2 e msg pk c ↔ pk = S.realKey r1 r2 ∧ c = S.enc (msg pk) (List.ofFn e) pk)
    {Ω : Type} [Fintype Ω] [Nonempty Ω] (R : Ω → List Byte → List Byte → List Byte) :
    fraction (fun d : Ω × Bytes 32 × Bytes 32 × Bytes 32 × Bytes 32 => finds (runs d.2.1 d.2.2.1 d.2.2.2.1) R d.1 d.2.2.2.2) ≤
      1 / 2 ^ 256 + 2 * (keyAdvantage S (keyAttack S (recoverAttacker List.ofFn R)) + encAdvantage S (encAttack S (recoverAttacker List.ofFn R))) :=
  oneway_bound S hq hT List.ofFn _ uniform_hit R (fun ω r1 r2 e m => finds (runs r1 r2 e) R ω m) (finds_iff S runs h R)

/-- C80: no attacker, with whatever messages and whatever use of randomness, guesses which of two messages of its choice was encrypted with a
probability that differs from one half by more than the sum of two advantages: in telling the vector of a public key from random numbers, and in telling the
rounded products of a ciphertext from random numbers.  The two algorithms with these advantages run the attacker once. -/
theorem C80_hiding (P : PSet) {Ω : Type} [Fintype Ω] [Nonempty Ω] (a : Attacker Ω) (ha : a.Fair) (pkb skb cb : List Byte)
    (hpk : pkb.length = P.INDCPA_PUBLICKEYBYTES) (hsk : skb.length = P.INDCPA_SECRETKEYBYTES) (hc : cb.length = P.BYTES_CCA_DEC) :
    |fraction (fun d : Ω × Bytes 32 × Bytes 32 × Bytes 32 × Bool => wins (codeRuns P pkb skb cb d.2.1 d.2.2.1 d.2.2.2.1) a d.1 d.2.2.2.2) - 1 / 2| ≤
      keyAdvantage (saberPke (params P)) (keyAttack (saberPke (params P)) a) +
        encAdvantage (saberPke (params P)) (encAttack (saberPke (params P)) a) := by
  rw [params_eq]
  exact wins_bound (saberPke P.spec) (.inr rfl) (ET_le P) (codeRuns P pkb skb cb) (codeRuns_iff P pkb skb cb hpk hsk hc) a ha

/-- C80: the same for uSaber and the 90s variants. -/
theorem C80_hiding_variants (f : U.Cfg) {Ω : Type} [Fintype Ω] [Nonempty Ω] (a : Attacker Ω) (ha : a.Fair) (pkb skb cb : List Byte)
    (hpk : pkb.length = f.INDCPA_PUBLICKEYBYTES) (hsk : skb.length = f.INDCPA_SECRETKEYBYTES) (hc : cb.length = f.BYTES_CCA_DEC) :
    |fraction (fun d : Ω × Bytes 32 × Bytes 32 × Bytes 32 × Bool => wins (codeRunsU f pkb skb cb d.2.1 d.2.2.1 d.2.2.2.1) a d.1 d.2.2.2.2) - 1 / 2| ≤
      keyAdvantage (uPke (variant f)) (keyAttack (uPke (variant f)) a) + encAdvantage (uPke (variant f)) (encAttack (uPke (variant f)) a) := by
  rw [variant_eq]
  exact wins_bound (uPke f.spec) (U_eq f) (U_ET_le f) (codeRunsU f pkb skb cb) (codeRunsU_iff f pkb skb cb hpk hsk hc) a ha

/-- C80: an algorithm that sees a public key and the ciphertext of a random message returns the message with probability at most `2^-256` plus twice the two
advantages. -/
theorem C80_one_way (P : PSet) {Ω : Type} [Fintype Ω] [Nonempty Ω] (R : Ω → List Byte → List Byte → List Byte) (pkb skb cb : List Byte)
    (hpk : pkb.length = P.INDCPA_PUBLICKEYBYTES) (hsk : skb.length = P.INDCPA_SECRETKEYBYTES) (hc : cb.length = P.BYTES_CCA_DEC) :
    fraction (fun d : Ω × Bytes 32 × Bytes 32 × Bytes 32 × Bytes 32 => finds (codeRuns P pkb skb cb d.2.1 d.2.2.1 d.2.2.2.1) R d.1 d.2.2.2.2) ≤
      1 / 2 ^ 256 + 2 * (keyAdvantage (saberPke (params P)) (keyAttack (saberPke (params P)) (recoverAttacker List.ofFn R)) +
        encAdvantage (saberPke (params P)) (encAttack (saberPke (params P)) (recoverAttacker List.ofFn R))) := by
  rw [params_eq]
  exact finds_bound (saberPke P.spec) (.inr rfl) (ET_le P) (codeRuns P pkb skb cb) (codeRuns_iff P pkb skb cb hpk hsk hc) R

/-- C80: the same for uSaber and the 90s variants. -/
theorem C80_one_way_variants (f : U.Cfg) {Ω : Type} [Fintype Ω] [Nonempty Ω] (R : Ω → List Byte → List Byte → List Byte) (pkb skb cb : List Byte)
    (hpk : pkb.length = f.INDCPA_PUBLICKEYBYTES) (hsk : skb.length = f.INDCPA_SECRETKEYBYTES) (hc : cb.length = f.BYTES_CCA_DEC) :
    fraction (fun d : Ω × Bytes 32 × Bytes 32 × Bytes 32 × Bytes 32 => finds (codeRunsU f pkb skb cb d.2.1 d.2.2.1 d.2.2.2.1) R d.1 d.2.2.2.2) ≤
      1 / 2 ^ 256 + 2 * (keyAdvantage (uPke (variant f)) (keyAttack (uPke (variant f)) (recoverAttacker List.ofFn R)) +
        encAdvantage (uPke (variant f)) (encAttack (uPke (variant f)) (recoverAttacker List.ofFn R))) := by
  rw [variant_eq]
  exact finds_bound (uPke f.spec) (U_eq f) (U_ET_le f) (codeRunsU f pkb skb cb) (codeRunsU_iff f pkb skb cb hpk hsk hc) R

/-- An attacker meets the hypotheses: it asks for the message of zeros or the beginning of the public key, and looks at the last byte of the ciphertext. -/
def sampleAttacker : Attacker Unit where
  messages _ pk b := if b then (pk ++ List.replicate 32 0).take 32 else List.replicate 32 0
  guess _ _ c := c.getLast? == some 0

theorem sampleAttacker_fair : sampleAttacker.Fair := by
  intro ω pk b
  cases b <;> simp [sampleAttacker]

example : |fraction (fun d : Unit × Bytes 32 × Bytes 32 × Bytes 32 × Bool =>
      wins (codeRuns .fire (List.replicate 1312 0) (List.replicate 1664 0) (List.replicate 1472 0) d.2.1 d.2.2.1 d.2.2.2.1) sampleAttacker d.1 d.2.2.2.2) - 1 / 2| ≤
    keyAdvantage (saberPke (params .fire)) (keyAttack (saberPke (params .fire)) sampleAttacker) +
      encAdvantage (saberPke (params .fire)) (encAttack (saberPke (params .fire)) sampleAttacker) :=
  C80_hiding .fire sampleAttacker sampleAttacker_fair _ _ _ (by rw [List.length_replicate]; rfl) (by rw [List.length_replicate]; rfl)
    (by rw [List.length_replicate]; rfl)

end Saber.Props
