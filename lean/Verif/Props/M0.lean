import Verif.Proof.M0.PolyMul
import Verif.Proof.Ring
/-!
# The Cortex-M0 port: C41, C45
-/
namespace Saber.Props
open Spec

/-! ### Multiplication -/

/-- C41: with wrapping 32-bit arithmetic, `pol_mul` computes `res += a*b` in `Z[X]/(X^256+1)` modulo `2^16`, for all contents of the
operands, and accesses nothing outside of its arrays. -/
theorem C41_pol_mul (a b res : List (BitVec 16)) (ha : a.length = 256) (hb : b.length = 256) (hr : res.length = 256) :
    ∃ r, M0.pol_mul M0.macWrap a b res = .ok r ∧ r.length = 256 ∧ ∀ k : Fin 256, toP r k % 65536 =
      (toP res k + ∑ i : Fin 256, (if i ≤ k then 1 else -1) * (toP a i * toP b (k - i))) % 65536 :=
  (M0.pol_mul_spec M0.macWrap_spec ha hb hr).to_ok

/-- C41: by the letter of the C standard, `pol_mul` either computes `res += a*b` modulo `2^16` or overflows `int` in a
multiplication; no other undefined behaviour is possible. -/
theorem C41_pol_mul_strict (a b res : List (BitVec 16)) (ha : a.length = 256) (hb : b.length = 256) (hr : res.length = 256) :
    M0.pol_mul M0.macC a b res = .error .signedOverflow ∨
    ∃ r, M0.pol_mul M0.macC a b res = .ok r ∧ r.length = 256 ∧ ∀ k : Fin 256, toP r k % 65536 =
      (toP res k + ∑ i : Fin 256, (if i ≤ k then 1 else -1) * (toP a i * toP b (k - i))) % 65536 := by
  rcases M0.pol_mul_spec (res := res) M0.macC_spec ha hb hr with ⟨r, h1, h2⟩ | ⟨e, h1, rfl⟩
  · exact .inr ⟨r, h1, h2⟩
  · exact .inl h1

/-- C41: the multiplications of the port and of the reference implementation agree modulo `q`. -/
theorem C41_pol_mul_eq_reference (a b res : List (BitVec 16)) (ha : a.length = 256) (hb : b.length = 256) (hr : res.length = 256) :
    ∃ r r', M0.pol_mul M0.macWrap a b res = .ok r ∧ poly_mul_acc a b res = .ok r' ∧ ∀ k, toP r k % 8192 = toP r' k % 8192 := by
  obtain ⟨r, h1, _, h3⟩ := C41_pol_mul a b res ha hb hr
  obtain ⟨r', h4, _, h6⟩ := poly_mul_acc_ok ha hb hr
  refine ⟨r, r', h1, h4, fun k => ?_⟩
  rw [h6 k]
  have := h3 k
  have e : toP r k % 65536 % 8192 = (toP res k + negMul (toP a) (toP b) k) % 65536 % 8192 := by rw [this]; rfl
  rwa [Int.emod_emod_of_dvd _ (by norm_num), Int.emod_emod_of_dvd _ (by norm_num)] at e

/-- Operands with all coefficients nonzero, which wrap around. -/
example : ∃ r, M0.pol_mul M0.macWrap (List.replicate 256 8191) (List.replicate 256 65535) (List.replicate 256 1) = .ok r ∧
    toP r 0 % 65536 = (1 + ∑ i : Fin 256, (if i ≤ (0 : Fin 256) then 1 else -1) * (8191 * 65535)) % 65536 := by
  obtain ⟨r, h1, _, h3⟩ := C41_pol_mul (List.replicate 256 8191) (List.replicate 256 65535) (List.replicate 256 1)
    List.length_replicate List.length_replicate List.length_replicate
  refine ⟨r, h1, ?_⟩
  rw [h3 0]
  have e : ∀ (v : BitVec 16) (i : Fin 256), toP (List.replicate 256 v) i = (v.toNat : Int) := fun v i => by
    unfold toP; rw [List.getD_replicate _ i.isLt]
  simp only [e]
  rfl

/-- C45: `pol_mul` overflows `int` in its first multiplication whenever the sums modulo `2^16` of every sixteenth coefficient of the
two operands have a product above `2^31 - 1`. -/
theorem C45_pol_mul_overflow (a b res : List (BitVec 16)) (ha : a.length = 256) (hb : b.length = 256)
    (h : 2 ^ 31 ≤ ((List.range 16).map fun m => a.getD (16 * m) 0).sum.toNat *
      ((List.range 16).map fun m => b.getD (16 * m) 0).sum.toNat) :
    M0.pol_mul M0.macC a b res = .error .signedOverflow := by
  refine M0.pol_mul_overflow ha hb ?_
  have : ((2 ^ 31 : Nat) : Int) ≤ ((M0.sum16 a).toNat * (M0.sum16 b).toNat : Nat) := Int.ofNat_le.mpr h
  rw [Nat.cast_mul] at this
  unfold prom
  exact lt_of_lt_of_le (by norm_num) this

/-- C45: the overflow happens for operands of the kind that key generation passes: a public polynomial with 13-bit coefficients and
a secret with coefficients `-1` (stored modulo `q` or modulo `2^16`). -/
theorem C45_pol_mul_overflow_reachable : ∀ res,
    M0.pol_mul M0.macC (List.replicate 256 8191) (List.replicate 256 8191) res = .error .signedOverflow ∧
    M0.pol_mul M0.macC (List.replicate 256 8191) (List.replicate 256 65535) res = .error .signedOverflow := fun res => by
  have e : ∀ v : BitVec 16, (List.range 16).map (fun m => (List.replicate 256 v).getD (16 * m) 0) = List.replicate 16 v := fun v => by
    rw [List.map_congr_left (g := fun _ => v) fun m hm => List.getD_replicate _ (by have := List.mem_range.mp hm; omega)]
    rfl
  constructor <;> refine C45_pol_mul_overflow _ _ _ List.length_replicate List.length_replicate ?_ <;> simp only [e] <;> decide

end Saber.Props
