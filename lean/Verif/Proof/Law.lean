import Verif.Proof.Prob
import Verif.Props.Sample
import Verif.Proof.RoundTrip
import Mathlib.Data.Nat.Choose.Sum
import Mathlib.Tactic.FieldSimp
/-!
# The law of the secret sampler on uniformly distributed bytes
-/
namespace Saber.Law
open Spec Saber.Props Saber.Prob

theorem ofFn_getD {α : Type} (xs : List α) (n : Nat) (d : α) (h : xs.length = n) : List.ofFn (fun m : Fin n => xs.getD m.val d) = xs := by
  subst h
  apply List.ext_getElem
  · simp
  · intro m h1 h2
    rw [List.getElem_ofFn]
    exact List.getD_eq_getElem _ _ h2

theorem length_pack' (k : Nat) (p : Poly) : (pack k p).length = 32 * k := by simp [pack]

/-- Byte strings of `32 k` bytes are families of 256 numbers of `k` bits. -/
def polyEquiv (k : Nat) : Bytes (32 * k) ≃ (Fin 256 → Fin (2 ^ k)) where
  toFun b i := ⟨natOfBits k fun j => bitAt (List.ofFn b) (k * i.val + j), natOfBits_lt _ _⟩
  invFun w m := (pack k fun i => ((w i).val : Int)).getD m.val 0
  left_inv b := by
    have h := pack_unpack k (List.ofFn b) (by simp)
    rw [List.take_of_length_le (by simp)] at h
    funext m
    show (pack k (unpack k (List.ofFn b))).getD m.val 0 = b m
    rw [h]
    simp
  right_inv w := by
    funext i
    have e : List.ofFn (fun m : Fin (32 * k) => (pack k fun i => ((w i).val : Int)).getD m.val 0) = pack k fun i => ((w i).val : Int) :=
      ofFn_getD _ _ _ (length_pack' _ _)
    apply Fin.ext
    have h := unpack_pack k (fun i => ((w i).val : Int)) i []
    rw [List.append_nil] at h
    have h2 : (((w i).val : Nat) : Int) % 2 ^ k = (w i).val := Int.emod_eq_of_lt (by omega) (by exact_mod_cast (w i).isLt)
    rw [h2] at h
    show natOfBits k (fun j => bitAt (List.ofFn fun m : Fin (32 * k) => (pack k fun i => ((w i).val : Int)).getD m.val 0) (k * i.val + j)) = _
    rw [e]
    exact Int.natCast_inj.1 h

theorem length_packVec' (k : Nat) {l : Nat} (v : Fin l → Poly) : (packVec k v).length = l * k * 32 := by
  have : ∀ n : Nat, ∀ xs : List (Fin l), xs.length = n → (xs.flatMap fun i => pack k (v i)).length = n * k * 32 := by
    intro n
    induction n with
    | zero => intro xs h; simp [List.length_eq_zero_iff.1 h]
    | succ n ih =>
      intro xs h
      cases xs with
      | nil => simp at h
      | cons x xs =>
        rw [List.flatMap_cons, List.length_append, length_pack', ih xs (by simpa using h)]
        ring
  exact this l _ (by simp)

/-- Byte strings of `32 k l` bytes are families of `256 l` numbers of `k` bits. -/
def vecEquiv (l k : Nat) : Bytes (l * k * 32) ≃ (Fin l → Fin 256 → Fin (2 ^ k)) where
  toFun b i n := ⟨natOfBits k fun j => bitAt ((List.ofFn b).drop (32 * k * i.val)) (k * n.val + j), natOfBits_lt _ _⟩
  invFun w m := (packVec k fun i n => ((w i n).val : Int)).getD m.val 0
  left_inv b := by
    have h := packVec_unpackVec k l (List.ofFn b) (by simp; ring_nf; exact le_refl _)
    rw [List.take_of_length_le (by simp; ring_nf; exact le_refl _)] at h
    funext m
    show (packVec k (unpackVec k l (List.ofFn b))).getD m.val 0 = b m
    rw [h]
    simp
  right_inv w := by
    funext i n
    have e : List.ofFn (fun m : Fin (l * k * 32) => (packVec k fun i n => ((w i n).val : Int)).getD m.val 0)
        = packVec k fun i n => ((w i n).val : Int) := ofFn_getD _ _ _ (length_packVec' _ _)
    apply Fin.ext
    have h := unpackVec_packVec k (fun i n => ((w i n).val : Int)) [] i n
    rw [List.append_nil] at h
    have h2 : (((w i n).val : Nat) : Int) % 2 ^ k = (w i n).val := Int.emod_eq_of_lt (by omega) (by exact_mod_cast (w i n).isLt)
    rw [h2] at h
    show natOfBits k (fun j => bitAt ((List.ofFn fun m : Fin (l * k * 32) => (packVec k fun i n => ((w i n).val : Int)).getD m.val 0).drop
      (32 * k * i.val)) (k * n.val + j)) = _
    rw [e]
    exact Int.natCast_inj.1 h

/-- A family of independent conditions. -/
theorem count_pi {ι κ : Type} [Fintype ι] [DecidableEq ι] [Fintype κ] (p : ι → κ → Prop) :
    count (fun w : ι → κ => ∀ i, p i (w i)) = ∏ i, count (p i) := by
  classical
  simp only [count_eq]
  rw [← Fintype.card_piFinset]
  congr 1
  ext w
  simp

theorem count_fin (n : Nat) (p : Nat → Prop) [DecidablePred p] : count (fun b : Fin n => p b.val) = ((List.range n).filter fun w => p w).length := by
  rw [count_eq, ← List.map_coe_finRange_eq_range, List.filter_map, List.length_map]
  simp only [Finset.card, Finset.filter, Fin.univ_def, Multiset.filter_coe, Multiset.coe_card]
  rfl

theorem patternValue_range (mu w : Nat) : -((mu / 2 : Nat) : Int) ≤ patternValue mu w ∧ patternValue mu w ≤ ((mu / 2 : Nat) : Int) := by
  unfold patternValue
  have h1 := hammingWeight_le (mu / 2) fun j => w.testBit j
  have h2 := hammingWeight_le (mu / 2) fun j => w.testBit (mu / 2 + j)
  omega

theorem count_pattern (P : PSet) (n : Nat) (hn : n ≤ muOf P) :
    count (fun b : Fin (2 ^ muOf P) => patternValue (muOf P) b.val = (n : Int) - (muOf P / 2 : Nat)) = Nat.choose (muOf P) n := by
  have h := C20_distribution P ((n : Int) - (muOf P / 2 : Nat))
  have hm : muOf P = 2 * (muOf P / 2) := by cases P <;> rfl
  rw [if_pos (by push_cast; omega)] at h
  rw [count_fin _ fun w => patternValue (muOf P) w = (n : Int) - (muOf P / 2 : Nat)]
  rw [show ((muOf P / 2 : Int) + ((n : Int) - (muOf P / 2 : Nat))).toNat = n by push_cast; omega] at h
  exact h

theorem mgf_pattern (P : PSet) (x : ℚ) (hx : 0 < x) (c : Int) :
    ∑ b : Fin (2 ^ muOf P), x ^ (c * patternValue (muOf P) b.val) = (2 + x ^ c + x ^ (-c)) ^ (muOf P / 2) := by
  classical
  have hm : muOf P = 2 * (muOf P / 2) := by cases P <;> rfl
  have r := fun b : Fin (2 ^ muOf P) => patternValue_range (muOf P) b.val
  rw [← Finset.sum_fiberwise_of_maps_to (s := Finset.univ) (t := Finset.range (muOf P + 1))
    (g := fun b : Fin (2 ^ muOf P) => (patternValue (muOf P) b.val + (muOf P / 2 : Nat)).toNat)
    (fun b _ => by rw [Finset.mem_range]; have := r b; omega)]
  have inner : ∀ n ∈ Finset.range (muOf P + 1),
      ∑ b ∈ Finset.univ.filter (fun b : Fin (2 ^ muOf P) => (patternValue (muOf P) b.val + (muOf P / 2 : Nat)).toNat = n),
        x ^ (c * patternValue (muOf P) b.val) = (x ^ c) ^ n * 1 ^ (muOf P - n) * (Nat.choose (muOf P) n : ℚ) * ((x ^ c) ^ (muOf P / 2))⁻¹ := by
    intro n hn
    rw [Finset.mem_range] at hn
    have e : ∀ b ∈ Finset.univ.filter (fun b : Fin (2 ^ muOf P) => (patternValue (muOf P) b.val + (muOf P / 2 : Nat)).toNat = n),
        x ^ (c * patternValue (muOf P) b.val) = x ^ (c * ((n : Int) - (muOf P / 2 : Nat))) := by
      intro b hb
      rw [Finset.mem_filter] at hb
      have := r b
      congr 2
      omega
    rw [Finset.sum_congr rfl e, Finset.sum_const, nsmul_eq_mul, ← count_pattern P n (by omega), count_eq]
    have f : (Finset.univ.filter fun b : Fin (2 ^ muOf P) => (patternValue (muOf P) b.val + (muOf P / 2 : Nat)).toNat = n)
        = Finset.univ.filter fun b : Fin (2 ^ muOf P) => patternValue (muOf P) b.val = (n : Int) - (muOf P / 2 : Nat) := by
      ext b
      have := r b
      simp only [Finset.mem_filter, Finset.mem_univ, true_and]
      omega
    rw [f, zpow_mul, zpow_sub₀ (by positivity), zpow_natCast, zpow_natCast]
    ring
  rw [Finset.sum_congr rfl inner, ← Finset.sum_mul, ← add_pow]
  have y0 : (0 : ℚ) < x ^ c := by positivity
  rw [zpow_neg]
  generalize x ^ c = y at y0
  conv_lhs => rw [hm]
  rw [pow_mul, show 2 * (muOf P / 2) / 2 = muOf P / 2 by omega, ← inv_pow, ← mul_pow]
  congr 1
  field_simp
  ring

end Saber.Law
