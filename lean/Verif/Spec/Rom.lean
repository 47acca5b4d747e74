import Verif.Spec.Hiding
/-!
# Shared secrets in the sight of an eavesdropper

The hash function that gives the coins of an encryption and the key before its last hashing (SHA3-512 in Saber) is a random function here, which the attacker may ask
(the random oracle model).  All other functions are as they are.
-/
namespace Saber.Spec

/-- An algorithm with questions `I` to an oracle and answers `O`: it returns, or asks and goes on with the answer. -/
inductive Alg (I O α : Type) where
  | ret (a : α)
  | ask (i : I) (next : O → Alg I O α)

/-- The result, if the oracle answers with `f`. -/
def Alg.run {I O α : Type} (f : I → O) : Alg I O α → α
  | .ret a => a
  | .ask i next => (next (f i)).run f

/-- The questions, if the oracle answers with `f`. -/
def Alg.asks {I O α : Type} (f : I → O) : Alg I O α → List I
  | .ret _ => []
  | .ask i next => i :: (next (f i)).asks f

/-- At most `q` questions, whatever the answers. -/
def Alg.AtMost {I O α : Type} (q : Nat) (a : Alg I O α) : Prop := ∀ f, (a.asks f).length ≤ q

/-- Two byte strings of length 32. -/
abbrev Pair32 := Bytes 32 × Bytes 32

/-- The message, the first key and the coins, and the ciphertext of an encapsulation with the random bytes `u`.  `h` is the hash function with 32 bytes of output; `G` maps the
message and the hash of the public key to the first key and the coins. -/
def firstKey (h : List Byte → Bytes 32) (G : Pair32 → Pair32) (pk : List Byte) (u : Bytes 32) : Pair32 := G (h (List.ofFn u), h pk)
def cipher (S : Pke) (h : List Byte → Bytes 32) (G : Pair32 → Pair32) (pk : List Byte) (u : Bytes 32) : List Byte :=
  S.enc (List.ofFn (h (List.ofFn u))) (List.ofFn (firstKey h G pk u).2) pk
/-- The shared secret: the hash of the first key and the hash of the ciphertext. -/
def secretOf (h : List Byte → Bytes 32) (k : Bytes 32) (c : List Byte) : Bytes 32 := h (List.ofFn k ++ List.ofFn (h c))

/-- The greatest value. -/
def maxOver {α : Type} [Fintype α] [Nonempty α] (f : α → Rat) : Rat := Finset.univ.sup' Finset.univ_nonempty f

/-- The probability that the hash of 32 random bytes is a given value, for the most frequent value. -/
noncomputable def hitOf (h : List Byte → Bytes 32) : Rat := maxOver fun w : Bytes 32 => fraction fun u : Bytes 32 => h (List.ofFn u) = w

/-! ### The hash functions of the code -/

/-- A list of 32 bytes as a function. -/
def bytes32 (x : List Byte) : Bytes 32 := fun i => x.getD i.val 0
/-- The hash function with 32 bytes of output. -/
def hashOf (s : USpec.Sym) (x : List Byte) : Bytes 32 := bytes32 (s.H x)
/-- The hash function with 64 bytes of output, on 64 bytes. -/
def coinsOf (s : USpec.Sym) (x : Pair32) : Pair32 :=
  let y := s.G (List.ofFn x.1 ++ List.ofFn x.2)
  (bytes32 (y.take 32), bytes32 (y.drop 32))
/-- The hash function with 32 bytes of output, on 64 bytes. -/
def finalOf (s : USpec.Sym) (x : Pair32) : Bytes 32 := bytes32 (s.H (List.ofFn x.1 ++ List.ofFn x.2))

/-- An eavesdropper: sees a public key, a ciphertext and 32 bytes, and asks the random function. -/
abbrev Eavesdropper (Ω : Type) := Ω → List Byte → List Byte → Bytes 32 → Alg Pair32 Pair32 Bool

/-- The eavesdropper sees the first key of the ciphertext. -/
def seesKey (S : Pke) (h : List Byte → Bytes 32) {Ω : Type} (A : Eavesdropper Ω) (ω : Ω) (r1 r2 u : Bytes 32) (G : Pair32 → Pair32) : Prop :=
  (A ω (S.realKey r1 r2) (cipher S h G (S.realKey r1 r2) u) (firstKey h G (S.realKey r1 r2) u).1).run G = true

/-- The eavesdropper sees the random string `k`, which has nothing to do with the ciphertext. -/
def seesOther (S : Pke) (h : List Byte → Bytes 32) {Ω : Type} (A : Eavesdropper Ω) (ω : Ω) (r1 r2 u : Bytes 32) (G : Pair32 → Pair32) (k : Bytes 32) : Prop :=
  (A ω (S.realKey r1 r2) (cipher S h G (S.realKey r1 r2) u) k).run G = true

/-- The eavesdropper sees the shared secret of the ciphertext. -/
def seesSecret (S : Pke) (h : List Byte → Bytes 32) {Ω : Type} (A : Eavesdropper Ω) (ω : Ω) (r1 r2 u : Bytes 32) (G : Pair32 → Pair32) : Prop :=
  let pk := S.realKey r1 r2
  let c := cipher S h G pk u
  (A ω pk c (secretOf h (firstKey h G pk u).1 c)).run G = true

/-- The eavesdropper sees what is made from the random string `k` in the way of a shared secret. -/
def seesOtherSecret (S : Pke) (h : List Byte → Bytes 32) {Ω : Type} (A : Eavesdropper Ω) (ω : Ω) (r1 r2 u : Bytes 32) (G : Pair32 → Pair32) (k : Bytes 32) : Prop :=
  let pk := S.realKey r1 r2
  let c := cipher S h G pk u
  (A ω pk c (secretOf h k c)).run G = true

/-- An eavesdropper who sees the shared secret is an eavesdropper who sees the first key and hashes it. -/
def hashing (h : List Byte → Bytes 32) {Ω : Type} (A : Eavesdropper Ω) : Eavesdropper Ω := fun ω pk c k => A ω pk c (secretOf h k c)

/-- From an eavesdropper: give it a random string, answer its questions at random, and return the message in one of its `q` questions. -/
def questionOf {Ω : Type} (A : Eavesdropper Ω) (q : Nat) : Ω × (Pair32 → Pair32) × Bytes 32 × Fin q → List Byte → List Byte → List Byte :=
  fun ω pk c => match ((A ω.1 pk c ω.2.2.1).asks ω.2.1)[ω.2.2.2.val]? with
    | some x => List.ofFn x.1
    | none => []

end Saber.Spec
