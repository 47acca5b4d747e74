import Verif.Spec.Rom
/-!
# Shared secrets in the sight of an attacker who may have ciphertexts decapsulated

Two hash functions are random functions here: the one that gives the first key and the coins of an encryption (SHA3-512 in Saber), and the one that makes the shared secret
from the first key and the hash of the ciphertext (SHA3-256 in Saber, on inputs of 64 bytes).
-/
namespace Saber.Spec

/-- An algorithm with three kinds of questions: to the first random function, to the second random function, and for decapsulation. -/
inductive Cca (I V Y B C α : Type) where
  | ret (a : α)
  | askG (x : I) (next : V → Cca I V Y B C α)
  | askF (y : Y) (next : B → Cca I V Y B C α)
  | askD (c : C) (next : B → Cca I V Y B C α)

/-- The result. -/
def Cca.run {I V Y B C α : Type} (G : I → V) (F : Y → B) (D : C → B) : Cca I V Y B C α → α
  | .ret a => a
  | .askG x next => (next (G x)).run G F D
  | .askF y next => (next (F y)).run G F D
  | .askD c next => (next (D c)).run G F D

/-- At most `qG`, `qF` and `qD` questions of the three kinds, whatever the answers. -/
def Cca.AtMost {I V Y B C α : Type} : Cca I V Y B C α → Nat → Nat → Nat → Prop
  | .ret _, _, _, _ => True
  | .askG _ next, qG, qF, qD => 0 < qG ∧ ∀ v, (next v).AtMost (qG - 1) qF qD
  | .askF _ next, qG, qF, qD => 0 < qF ∧ ∀ b, (next b).AtMost qG (qF - 1) qD
  | .askD _ next, qG, qF, qD => 0 < qD ∧ ∀ b, (next b).AtMost qG qF (qD - 1)

/-- An attacker: sees a public key, a ciphertext and a shared secret, and asks questions. -/
abbrev CcaAttacker (Ω : Type) := Ω → List Byte → List Byte → Bytes 32 → Cca Pair32 Pair32 Pair32 (Bytes 32) (List Byte) Bool

/-- Decapsulation: decrypt, encrypt again with the coins that belong to the message, and return the secret of the message if the ciphertext is the same, and a secret made
from the secret string `z` otherwise. -/
def decapsWith (S : Pke) (h : List Byte → Bytes 32) (G : Pair32 → Pair32) (F : Pair32 → Bytes 32) (pk : List Byte) (dec : List Byte → Bytes 32) (z : Bytes 32)
    (c : List Byte) : Bytes 32 :=
  let kr := G (dec c, h pk)
  if S.enc (List.ofFn (dec c)) (List.ofFn kr.2) pk = c then F (kr.1, h c) else F (z, h c)

/-- The answers of the decapsulation oracle: the ciphertext of the challenge is not decapsulated. -/
def answer (S : Pke) (h : List Byte → Bytes 32) (G : Pair32 → Pair32) (F : Pair32 → Bytes 32) (pk : List Byte) (dec : List Byte → Bytes 32) (z : Bytes 32)
    (c' c : List Byte) : Bytes 32 :=
  if c = c' then fun _ => 0 else decapsWith S h G F pk dec z c

/-- The random choices of the attacker, the random bytes of key generation, the random bytes of the encapsulation, and the two random functions. -/
abbrev World (Ω : Type) := (Ω × Bytes 32 × Bytes 32 × Bytes 32) × Bytes 32 × (Pair32 → Bytes 32) × (Pair32 → Pair32)

/-- The attacker sees the shared secret of the ciphertext. -/
def ccaReal (S : Pke) (dec : Bytes 32 → List Byte → Bytes 32) (h : List Byte → Bytes 32) {Ω : Type} (A : CcaAttacker Ω) (w : World Ω) : Prop :=
  let ⟨⟨ω, r1, r2, u⟩, z, F, G⟩ := w
  let pk := S.realKey r1 r2
  let c := cipher S h G pk u
  (A ω pk c (F ((firstKey h G pk u).1, h c))).run G F (answer S h G F pk (dec r2) z c) = true

/-- The attacker sees the random string `k` instead. -/
def ccaOther (S : Pke) (dec : Bytes 32 → List Byte → Bytes 32) (h : List Byte → Bytes 32) {Ω : Type} (A : CcaAttacker Ω) (w : World Ω) (k : Bytes 32) : Prop :=
  let ⟨⟨ω, r1, r2, u⟩, z, F, G⟩ := w
  let pk := S.realKey r1 r2
  let c := cipher S h G pk u
  (A ω pk c k).run G F (answer S h G F pk (dec r2) z c) = true

/-- Average over a finite type. -/
def mean {Ω : Type} [Fintype Ω] (f : Ω → Rat) : Rat := (∑ ω, f ω) / Fintype.card Ω

/-- The probability over the coins that decryption does not give the message back, for the worst message. -/
noncomputable def failureOf (S : Pke) (dec : Bytes 32 → List Byte → Bytes 32) (r1 r2 : Bytes 32) : Rat :=
  maxOver fun m : Bytes 32 => fraction fun e : Bytes 32 => dec r2 (S.enc (List.ofFn m) (List.ofFn e) (S.realKey r1 r2)) ≠ m

/-- The probability over the coins that an encryption is a given ciphertext of the message, for the worst message and ciphertext. -/
noncomputable def repeatOf (S : Pke) (r1 r2 : Bytes 32) : Rat :=
  maxOver fun y : Pair32 => fraction fun e : Bytes 32 =>
    S.enc (List.ofFn y.1) (List.ofFn e) (S.realKey r1 r2) = S.enc (List.ofFn y.1) (List.ofFn y.2) (S.realKey r1 r2)

/-! ### The reduction: an eavesdropper who answers the questions for decapsulation without the secret key -/

/-- Answer to a question for decapsulation, if the questions `log` to the first random function have been asked and answered: the secret of the message, if the ciphertext is
that of a message in a question, and a random secret otherwise. -/
def simAnswer (S : Pke) (h : List Byte → Bytes 32) (F : Pair32 → Bytes 32) (J : Bytes 32 → Bytes 32) (pk c' : List Byte) (log : List (Pair32 × Pair32)) (c : List Byte) : Bytes 32 :=
  if c = c' then fun _ => 0 else
    match log.find? fun p => decide (p.1.2 = h pk) && decide (S.enc (List.ofFn p.1.1) (List.ofFn p.2.2) pk = c) with
    | some p => F (p.2.1, h c)
    | none => J (h c)

/-- The attacker with the questions to the second function answered by `F` and the questions for decapsulation answered by `D` from what has been asked. -/
def Cca.sim {I V Y B C α : Type} (F : Y → B) (D : List (I × V) → C → B) : List (I × V) → Cca I V Y B C α → Alg I V α
  | _, .ret a => .ret a
  | log, .askG x next => .ask x fun v => (next v).sim F D ((x, v) :: log)
  | log, .askF y next => (next (F y)).sim F D log
  | log, .askD c next => (next (D log c)).sim F D log

/-- The eavesdropper; it draws the second random function and the secrets of rejected ciphertexts itself. -/
def simEavesdropper (S : Pke) (h : List Byte → Bytes 32) {Ω : Type} (A : CcaAttacker Ω) : Eavesdropper (Ω × (Pair32 → Bytes 32) × (Bytes 32 → Bytes 32)) :=
  fun ω pk c k => (A ω.1 pk c (ω.2.1 (k, h c))).sim ω.2.1 (simAnswer S h ω.2.1 ω.2.2 pk c) []

end Saber.Spec
